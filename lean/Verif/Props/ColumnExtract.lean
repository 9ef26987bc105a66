import Verif.Proofs.ColumnExtract
import Verif.Proofs.GridValid
import Mathlib.Data.List.Sort
/-!
# Properties of column extraction
-/

namespace Opm.ColumnExtract
open Opm

/-- `extractColumn`, given an empty vector, returns the maximal connected vertical stacks of cells, each cell exactly once, however `std::sort` works. -/
theorem extract_columns {g : ColGrid} (h : g.Ok) {sort : (Nat → Nat) → List Nat → List Nat} (hsort : Sorts sort) : ∃ cols, extractColumn sort g [] = .ok cols ∧ Stacks g cols :=
  extractColumn_ok h hsort

/-- A sorting function. -/
def exSort (key : Nat → Nat) (l : List Nat) : List Nat := l.insertionSort (fun a b => key a ≤ key b)

theorem exSort_sorts : Sorts exSort := by
  intro key l
  refine ⟨List.perm_insertionSort _ l, ?_⟩
  exact @List.pairwise_insertionSort Nat (fun a b => key a ≤ key b) _ ⟨fun a b => Nat.le_total _ _⟩ ⟨fun a b c => Nat.le_trans⟩ l

/-- Two columns of four layers.  In the first, layer 2 is missing and there is a gap; cells are numbered from below. -/
def exGrid : ColGrid :=
  { topo := { nc := 5, nf := 4, faceCells := [2, 1, 4, 3, 1, 0, 3, -1], cellFacepos := [0, 1, 3, 4, 6, 7], cellFaces := [2, 0, 2, 0, 1, 3, 1] }
    nx := 2, ny := 1, globalCell := some [4, 2, 0, 5, 3] }

theorem exGrid_ok : exGrid.Ok := by
  refine ⟨GridTopo.ValidB.valid (by decide), by decide, by decide, ?_, ?_⟩
  · intro l h; cases h; rfl
  · have : ∀ c, c < 5 → ∀ c', c' < 5 → exGrid.cart c = exGrid.cart c' → c = c' := by decide
    intro c c' hc hc'
    exact this c hc c' hc'

/-- Cells 2, 1, 0 are a stack, and cells 4, 3 are one. -/
example : extractColumn exSort exGrid [] = .ok [[2, 1, 0], [4, 3]] := by decide +kernel

/-- The same without the face between cells 1 and 0: the column is split, and its lowest part stays in place. -/
example : extractColumn exSort { exGrid with topo := { exGrid.topo with faceCells := [2, 1, 4, 3, 1, -1, 3, -1], cellFaces := [3, 0, 2, 0, 1, 3, 1] } } [] = .ok [[0], [4, 3], [2, 1]] := by decide +kernel

/-- What is in the vector before the call stays there: the result then contains cells twice. -/
theorem old_columns_stay : ∃ (g : ColGrid) (sort : (Nat → Nat) → List Nat → List Nat) (cols cols' : List (List Nat)), g.Ok ∧ Sorts sort ∧ extractColumn sort g [] = .ok cols ∧
    extractColumn sort g cols = .ok cols' ∧ ¬ Stacks g cols' :=
  ⟨exGrid, exSort, [[2, 1, 0], [4, 3]], [[2, 1, 0], [4, 3], [2, 1, 0], [4, 3]], exGrid_ok, exSort_sorts, by decide +kernel, by decide +kernel,
    fun h => absurd h.once.length_eq (by decide)⟩

end Opm.ColumnExtract
