import Mathlib.Logic.Relation
/-!
# Directed graphs in compressed sparse row format

Specification vocabulary only: nothing here is part of the model.
-/

namespace Opm.Graph

/-- `ia`, `ja` are a compressed-row structure with `nr` rows whose entries are `< nc`: `ia` has
`nr+1` nondecreasing entries, `ja` is long enough, and the used part of `ja` is in range. -/
structure CSR (nr nc : Nat) (ia ja : List Nat) : Prop where
  len : ia.length = nr + 1
  mono : ∀ i a b, ia[i]? = some a → ia[i + 1]? = some b → a ≤ b
  bound : ∀ a, ia[nr]? = some a → a ≤ ja.length
  range : ∀ a e w, ia[nr]? = some a → e < a → ja[e]? = some w → w < nc

/-- A CSR adjacency structure on the vertices `0, …, nv-1`. -/
abbrev WF (nv : Nat) (ia ja : List Nat) : Prop := CSR nv nv ia ja

/-- There is an edge from `u` to `w` (row `u` has the entry `w`): `w` is one of `ja[ia[u]], …, ja[ia[u+1]-1]`. -/
def Edge (ia ja : List Nat) (u w : Nat) : Prop :=
  ∃ a b e, ia[u]? = some a ∧ ia[u + 1]? = some b ∧ a ≤ e ∧ e < b ∧ ja[e]? = some w

/-- `w` can be reached from `u` along zero or more edges. -/
def Reach (ia ja : List Nat) : Nat → Nat → Prop := Relation.ReflTransGen (Edge ia ja)

/-- Consecutive block boundaries of a list of blocks, starting at `acc`. -/
def boundaries {α : Type _} : Nat → List (List α) → List Nat
  | acc, [] => [acc]
  | acc, b :: bs => acc :: boundaries (acc + b.length) bs

/-- The `i`-th block `vert[comp[i]], …, vert[comp[i+1]-1]`. -/
def block (vert comp : List Nat) (i : Nat) : List Nat :=
  match comp[i]?, comp[i + 1]? with
  | some a, some b => (vert.drop a).take (b - a)
  | _, _ => []

end Opm.Graph
