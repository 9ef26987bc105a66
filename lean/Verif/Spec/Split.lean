import Mathlib.Logic.Relation
/-!
# Specification of splitting disconnected blocks

Nothing here refers to the model.
-/

namespace Opm.Partition.Spec

/-- Cells `c` and `d` are listed as neighbours: `{neigh[2*i], neigh[2*i+1]} = {c, d}` for some `i`. -/
def Adjacent (nneigh : Nat) (neigh : List Int) (c d : Nat) : Prop :=
  ∃ i : Nat, i < nneigh ∧ ((neigh[2 * i]? = some (c : Int) ∧ neigh[2 * i + 1]? = some (d : Int)) ∨
    (neigh[2 * i]? = some (d : Int) ∧ neigh[2 * i + 1]? = some (c : Int)))

/-- `c` and `d` are connected by a chain of neighbours that never leaves the block of `c`. -/
def ConnectedInBlock (nneigh : Nat) (neigh : List Int) (p : List Int) : Nat → Nat → Prop :=
  Relation.ReflTransGen (fun c d => Adjacent nneigh neigh c d ∧ p[c]? = p[d]?)

/-- `(p', r)` is the correct result of splitting the disconnected blocks of `p`. -/
structure SplitOf (nneigh : Nat) (neigh : List Int) (p p' : List Int) (r : Int) : Prop where
  /-- one block number per cell -/
  len : p'.length = p.length
  /-- the new blocks are exactly the connected pieces of the old ones -/
  same_iff : ∀ c d : Nat, c < p.length → d < p.length →
    (p'[c]? = p'[d]? ↔ ConnectedInBlock nneigh neigh p c d)
  /-- a cell keeps its block number or gets a number that was not in use -/
  keep_or_new : ∀ (c : Nat) (x v : Int), p[c]? = some x → p'[c]? = some v → v = x ∨ ∀ y ∈ p, y < v
  /-- every old block number is still in use -/
  old_used : ∀ x ∈ p, x ∈ p'
  /-- the numbers that were not in use before are `r` consecutive ones following the largest old one -/
  new_iff : ∀ v : Int, (v ∈ p' ∧ ∀ y ∈ p, y < v) ↔ ∃ m ∈ p, (∀ y ∈ p, y ≤ m) ∧ m < v ∧ v ≤ m + r
  /-- the number of new blocks is not negative -/
  nonneg : 0 ≤ r

end Opm.Partition.Spec
