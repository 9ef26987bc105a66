import Verif.Model.Bucket
import Mathlib.Data.List.Sort
/-!
# Compressed sparse row matrices

Models `opm/core/linalg/sparse_sys.c`.  Allocation succeeds.  `malloc`ed memory has arbitrary contents,
supplied by the parameter `junk`.  The numerical values `sa` are not modelled here, except by
`vectorZero`.  `int` column numbers are `Nat`.
-/

namespace Opm.SparseSys
open Opm

/-- `struct CSRMatrix` without `sa`.  Models: `sparse_sys.h:48-55`. -/
structure Csr where
  m : Nat
  nnz : Nat
  ia : List Nat
  ja : List Nat
  deriving DecidableEq, Repr

/-- `csrmatrix_new_count_nnz(m)`; the pointer `ja` is `NULL`, here empty.
Models: `sparse_sys.c:29-57`. -/
def newCountNnz (m : Nat) : M Csr := do
  check (decide (m > 0))
  .ok { m := m, nnz := 0, ia := List.replicate (m + 1) 0, ja := [] }

/-- What callers do for each entry of row `r`: `A->ia[r + 1] += 1`.
Models: the counting loops of callers, e.g. `ifs_tpfa.c:111-137`. -/
def countElm (A : Csr) (r : Nat) : M Csr := do
  let ia ← bump A.ia (r + 1)
  .ok { A with ia := ia }

/-- `csrmatrix_new_elms_pushback(A)`.  Models: `sparse_sys.c:92-121`. -/
def elmsPushback (junk : Nat → Nat) (A : Csr) : M Csr := do
  let z ← rd A.ia 0
  check (z == 0)
  let ia ← accumulate A.m A.ia
  let nnz ← rd ia 0
  check (decide (nnz > 0))
  let ia ← wr ia 0 0
  .ok { A with nnz := nnz, ia := ia, ja := (List.range nnz).map junk }

/-- What callers do for each entry `(r, c)`: `A->ja[A->ia[r + 1]++] = c`.
Models: the push-back loops, e.g. `ifs_tpfa.c:147-173`. -/
def pushElm (A : Csr) (r c : Nat) : M Csr := do
  let s ← pushAt (r + 1) c (A.ia, A.ja)
  .ok { A with ia := s.1, ja := s.2 }

/-- The whole construction: `counted` is the sequence of rows of the counting loops, `items` the
sequence of (row, column) of the push-back loops.  Models: the call pattern of `ifs_tpfa.c:108-173`. -/
def build (junk : Nat → Nat) (m : Nat) (counted : List Nat) (items : List (Nat × Nat)) : M Csr := do
  let A ← newCountNnz m
  let A ← counted.foldlM countElm A
  let A ← elmsPushback junk A
  items.foldlM (fun A p => pushElm A p.1 p.2) A

/-- `qsort` of the elements `a, …, b-1` of `ja` by increasing value (integers: the sorted result is
unique, so any sorting algorithm is a faithful model).  Models: `sparse_sys.c:141-144`. -/
def sortSegment (a b : Nat) (ja : List Nat) : M (List Nat) :=
  if a ≤ b ∧ b ≤ ja.length then
    .ok (ja.take a ++ ((ja.drop a).take (b - a)).insertionSort (· ≤ ·) ++ ja.drop b)
  else .error .ub

/-- `csrmatrix_sortrows(A)`.  Models: `sparse_sys.c:133-147`. -/
def sortrows (m : Nat) (ia ja : List Nat) : M (List Nat) :=
  loop m (fun i ja => do
    let a ← rd ia i
    let b ← rd ia (i + 1)
    sortSegment a b ja) ja

/-- `bsearch` as in the GNU C library: positions `l, …, u-1` remain.  Returns the position found.
Fuel bounds the number of halvings.  Models: library function called at `sparse_sys.c:156`. -/
def bsearch (ja : List Nat) (j : Nat) : Nat → Nat → Nat → M (Option Nat)
  | 0, _, _ => .ok none
  | fuel + 1, l, u =>
    if l < u then do
      let idx := (l + u) / 2
      let x ← rd ja idx
      if j < x then bsearch ja j fuel l idx
      else if x < j then bsearch ja j fuel (idx + 1) u
      else .ok (some idx)
    else .ok none

/-- `csrmatrix_elm_index(i, j, A)`.  Models: `sparse_sys.c:150-163`. -/
def elmIndex (i j : Nat) (ia ja : List Nat) : M Nat := do
  let a ← rd ia i
  let b ← rd ia (i + 1)
  let p ← bsearch ja j (b - a + 1) a b
  match p with
  | some k => .ok k
  | none => .error .assertFail

/-- `vector_zero(n, v)`.  Models: `sparse_sys.c:196-204`. -/
def vectorZero (n : Nat) (v : List Rat) : M (List Rat) :=
  loop n (fun i v => wr v i 0) v

end Opm.SparseSys
