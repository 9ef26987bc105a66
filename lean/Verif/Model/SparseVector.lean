import Verif.Model.StdAlg
/-!
# Sparse vectors

Models `opm/core/utility/SparseVector.hpp`.  Debug build: `ASSERT` is active.  The value-initialised
`default_elem_` is the parameter `dflt`.  `int` is unbounded.
-/

namespace Opm.SparseVector
open Opm

/-- The data members.  Models: `SparseVector.hpp:184-187`. -/
structure Vec (α : Type _) where
  size : Int
  data : List α
  indices : List Int
  deriving DecidableEq, Repr

variable {α : Type _}

/-- `SparseVector(int sz)`.  Models: `SparseVector.hpp:66-69`; `new 0` is also the default constructor `:59-62`. -/
def new (sz : Int) : Vec α := { size := sz, data := [], indices := [] }

/-- The index test of the full constructor.  Models: `SparseVector.hpp:86-94`. -/
def validate (sz : Int) : Int → List Int → M Unit
  | _, [] => .ok ()
  | last, i :: is => if i ≤ last ∨ i ≥ sz then .error .thrown else validate sz i is

/-- The constructor taking all data.  Models: `SparseVector.hpp:76-97`. -/
def newFull (sz : Int) (data : List α) (indices : List Int) : M (Vec α) := do
  check (decide (sz ≥ 0))
  check (indices.length == data.length)
  validate sz (-1) indices
  .ok { size := sz, data := data, indices := indices }

/-- `addElement(elem, index)`.  Models: `SparseVector.hpp:102-108`. -/
def addElement (x : α) (i : Int) (v : Vec α) : M (Vec α) := do
  check (v.indices.getLast?.all (fun b => decide (i > b)))
  check (decide (i < v.size))
  .ok { v with data := v.data ++ [x], indices := v.indices ++ [i] }

/-- `nonzeroSize()`.  Models: `SparseVector.hpp:124-127`. -/
def nonzeroSize (v : Vec α) : Int := v.data.length

/-- `clear()`.  Models: `SparseVector.hpp:130-135`. -/
def clear (_ : Vec α) : Vec α := { size := 0, data := [], indices := [] }

/-- `element(index)`.  Models: `SparseVector.hpp:147-157`. -/
def element (dflt : α) (i : Int) (v : Vec α) : M α := do
  check (decide (i ≥ 0))
  check (decide (i < v.size))
  let lb ← StdAlg.lowerBound (fun k => decide (k < i)) v.indices
  if lb = v.indices.length then .ok dflt
  else do
    let k ← rd v.indices lb
    if k = i then rd v.data lb else .ok dflt

/-- `nonzeroElement(nzindex)`.  Models: `SparseVector.hpp:162-167`. -/
def nonzeroElement (k : Int) (v : Vec α) : M α := do
  check (decide (k ≥ 0))
  check (decide (k < nonzeroSize v))
  rdI v.data k

/-- `nonzeroIndex(nzindex)`.  Models: `SparseVector.hpp:172-177`. -/
def nonzeroIndex (k : Int) (v : Vec α) : M Int := do
  check (decide (k ≥ 0))
  check (decide (k < nonzeroSize v))
  rdI v.indices k

/-- A mutating call. -/
inductive Op (α : Type _) where
  | add (x : α) (i : Int)
  | clear

/-- A sequence of mutating calls. -/
def run : List (Op α) → Vec α → M (Vec α)
  | [], v => .ok v
  | .add x i :: ops, v => do
    let v ← addElement x i v
    run ops v
  | .clear :: ops, v => run ops (clear v)

end Opm.SparseVector
