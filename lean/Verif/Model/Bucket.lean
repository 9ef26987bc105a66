import Verif.Core.Mem
/-!
# The "count, accumulate, push back" idiom

Several C functions build compressed-row structures with the same three loops.  The statements
of those loops are modelled once here and used by `Verif.Model.Partition` and `Verif.Model.CSR`.
-/

namespace Opm

/-- `ia[k]++`.
Models: `opm/core/pressure/msmfem/partition.c:253`, `:334-335`, `:483`;
`opm/core/pressure/tpfa/ifs_tpfa.c` counting loops. -/
def bump (ia : List Nat) (k : Nat) : M (List Nat) := do
  let x ← rd ia k
  wr ia k (x + 1)

/-- `for (i = 1; i <= m; i++) { ia[0] += ia[i]; ia[i] = ia[0] - ia[i]; }`
Models: `opm/core/linalg/sparse_sys.c:100-103`, `opm/core/pressure/msmfem/partition.c:255-258`,
`:490-493`. -/
def accumulate (m : Nat) (ia : List Nat) : M (List Nat) :=
  loop m (fun k ia => do
    let a0 ← rd ia 0
    let x ← rd ia (k + 1)
    let ia ← wr ia 0 (a0 + x)
    let a0 ← rd ia 0
    let x ← rd ia (k + 1)
    wr ia (k + 1) (a0 - x)) ia

/-- `ja[ ia[k] ++ ] = v;`
Models: `opm/core/pressure/msmfem/partition.c:262`, `:351`, `:360-361`, `:501`. -/
def pushAt {α : Type} (k : Nat) (v : α) (s : List Nat × List α) : M (List Nat × List α) := do
  let pos ← rd s.1 k
  let ia ← wr s.1 k (pos + 1)
  let ja ← wr s.2 pos v
  .ok (ia, ja)

/-- `for (i = 0; i < n; i++) a[i] = x;`
Models: `opm/core/pressure/msmfem/partition.c:151`, `:248-250`, `:324-326`, `:472-474`;
`opm/core/linalg/sparse_sys.c:43`. -/
def fill {α : Type} (n : Nat) (x : α) (a : List α) : M (List α) :=
  loop n (fun i a => wr a i x) a

end Opm
