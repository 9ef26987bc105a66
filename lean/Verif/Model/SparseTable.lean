import Verif.Core.Mem
/-!
# Model of `opm/core/utility/SparseTable.hpp`

Simplifications: `reserve` (SparseTable.hpp:130-134) and `print` (:190-203) have no observable effect
on contents and are left out.  The debug build is modelled (the `min_element` test of :223-227 is on and
`ASSERT` is a failing check).  Mutating functions return the new table *and* the outcome of the call,
because a C++ exception leaves the object in whatever state it had reached.
-/

namespace Opm.SparseTable

/-- SparseTable.hpp:209-212, data members. -/
structure Table (α : Type _) where
  data : List α
  rowStart : List Int
  deriving DecidableEq, Repr

variable {α : Type _}

/-- SparseTable.hpp:58-60, default constructor. -/
def new : Table α := { data := [], rowStart := [] }

/-- `std::partial_sum` (used at SparseTable.hpp:230), started from `acc`. -/
def partialSum : Int → List Int → List Int
  | _, [] => []
  | acc, x :: xs => (acc + x) :: partialSum (acc + x) xs

/-- SparseTable.hpp:214-236, `setRowStartsFromSizes`. -/
def setRowStartsFromSizes (sizes : List Int) (t : Table α) : Table α × M Unit :=
  if sizes.length < 1 then (t, .error .thrown)
  else if sizes.any (· < 0) then (t, .error .thrown)
  else
    let t' := { t with rowStart := 0 :: partialSum 0 sizes }
    if (t'.data.length : Int) ≠ t'.rowStart.getLastD 0 then (t', .error .thrown)
    else (t', .ok ())

/-- SparseTable.hpp:83-88, `assign`; the constructor of :68-73 is `assign` on the empty table. -/
def assign (data : List α) (sizes : List Int) (t : Table α) : Table α × M Unit :=
  setRowStartsFromSizes sizes { t with data := data }

/-- `std::vector::resize(n)` with value-initialised filler `dflt`. -/
def resize (dflt : α) (n : Nat) (l : List α) : List α :=
  l.take n ++ List.replicate (n - l.length) dflt

/-- SparseTable.hpp:95-102, `allocate`.  The sizes are accumulated as an unsigned `size_type`;
only non-negative sizes are modelled (`Nat`). -/
def allocate (dflt : α) (sizes : List Nat) (t : Table α) : Table α × M Unit :=
  setRowStartsFromSizes (sizes.map (Int.ofNat ·))
    { t with data := resize dflt sizes.sum t.data }

/-- SparseTable.hpp:107-115, `appendRow`. -/
def appendRow (row : List α) (t : Table α) : Table α :=
  let data := t.data ++ row
  let rs := if t.rowStart.isEmpty then [0] else t.rowStart
  { data := data, rowStart := rs ++ [(data.length : Int)] }

/-- SparseTable.hpp:118-121. -/
def empty (t : Table α) : Bool := t.rowStart.isEmpty

/-- SparseTable.hpp:124-127. -/
def size (t : Table α) : Int := if empty t then 0 else (t.rowStart.length : Int) - 1

/-- SparseTable.hpp:144-147. -/
def dataSize (t : Table α) : Int := t.data.length

/-- SparseTable.hpp:150-154. -/
def rowSize (row : Int) (t : Table α) : M Int := do
  check (decide (row ≥ 0 ∧ row < size t))
  let b ← rdI t.rowStart (row + 1)
  let a ← rdI t.rowStart row
  .ok (b - a)

/-- SparseTable.hpp:157-161. -/
def clear (_ : Table α) : Table α := { data := [], rowStart := [] }

/-- SparseTable.hpp:168-173 and :176-181, `operator[]`: the elements of the returned pointer range.
A range that is not inside `data_` is undefined behaviour. -/
def getRow (row : Int) (t : Table α) : M (List α) := do
  check (decide (row ≥ 0 ∧ row < size t))
  let a ← rdI t.rowStart row
  let b ← rdI t.rowStart (row + 1)
  if 0 ≤ a ∧ a ≤ b ∧ b ≤ t.data.length then
    .ok ((t.data.drop a.toNat).take (b - a).toNat)
  else .error .ub

/-- SparseTable.hpp:176-181, writing element `j` of the mutable row `row`. -/
def setElem (row : Int) (j : Nat) (x : α) (t : Table α) : M (Table α) := do
  let r ← getRow row t
  if j < r.length then
    let a ← rdI t.rowStart row
    let d ← wr t.data (a.toNat + j) x
    .ok { t with data := d }
  else .error .ub

/-- SparseTable.hpp:184-187. -/
def beq [DecidableEq α] (s t : Table α) : Bool := decide (s.data = t.data) && decide (s.rowStart = t.rowStart)

/-- The mutating calls (SparseTable.hpp:83-181).  `swap` (:137-141) exchanges two tables and is covered by
taking the history of either. -/
inductive Op (α : Type _) where
  | assign (data : List α) (sizes : List Int)
  | allocate (sizes : List Nat)
  | appendRow (row : List α)
  | clear
  | setElem (row : Int) (j : Nat) (x : α)

/-- One call, stopping the history at the first exception. -/
def step (dflt : α) (t : Table α) : Op α → M (Table α)
  | .assign d s => let r := assign d s t; r.2 >>= fun _ => .ok r.1
  | .allocate s => let r := allocate dflt s t; r.2 >>= fun _ => .ok r.1
  | .appendRow r => .ok (appendRow r t)
  | .clear => .ok (clear t)
  | .setElem i j x => setElem i j x t

/-- A history of calls. -/
def run (dflt : α) (t : Table α) : List (Op α) → M (Table α)
  | [] => .ok t
  | o :: os => do
    let t' ← step dflt t o
    run dflt t' os

end Opm.SparseTable
