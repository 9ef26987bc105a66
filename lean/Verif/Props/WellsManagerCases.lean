import Verif.Props.WellsManager
/-!
# Wells built from a deck: cases (C75, C76)
-/

namespace Opm.Manager
open Opm Wells Groups

/-- A grid with 2 × 2 × 2 cells, one of them inactive; the faces of the first active cell are given. -/
def box : Grid :=
  { dimensions := 3, ncells := 7, globalCell := some [0, 1, 2, 4, 5, 6, 7], cartdims := (2, 2, 2), facepos := [0, 6], faces := [0, 1, 2, 3, 4, 5],
    faceCentroids := [0, 5, 1, 10, 5, 1, 5, 0, 1, 5, 10, 1, 5, 5, 0, 5, 5, 2],
    cellCentroids := [5, 5, 1, 15, 5, 1, 5, 15, 1, 5, 5, 3, 15, 5, 3, 5, 15, 3, 15, 15, 3] }

theorem box_wellFormed : box.WellFormed := by
  refine ⟨?_, ?_⟩
  · intro gc h
    cases h
    decide
  · decide

/-- In place of the logarithm. -/
def toyModel : Peaceman := fun r cube kx ky skin => .ok ((cube.1 + cube.2.1 + cube.2.2) * kx * ky + r + skin)

/-- Permeabilities of the first active cell. -/
def toyPerm : List Rat := [2, 0, 0, 0, 3, 0, 0, 0, 4]

/-- Two producers and a water injector. -/
def wellsDeck : Deck :=
  { water := true, oil := true, gas := false,
    welspecs := some [⟨"PROD1", "G", 1, 1, 100⟩, ⟨"PROD2", "G", 2, 1, -1⟩, ⟨"INJ", "G", 2, 2, 250⟩, ⟨"PROD1", "G", 1, 1, 120⟩],
    compdat := some [⟨"PROD1", 0, 0, 0, 1, 0, 1, 5⟩, ⟨"PROD1", 0, 0, 2, 2, 5, 0, 0⟩, ⟨"PROD2", 0, 0, 2, 0, 7, 0, 0⟩, ⟨"INJ", 2, 2, 2, 2, 9, 0, 0⟩],
    wconinje := some [{ well := "INJ", injectorType := "WATER", controlMode := "RATE", surfaceMax := 50 }],
    wconprod := some [{ well := "PROD1", controlMode := "BHP", bhp := 100 }, { well := "PROD2", controlMode := "LRAT", oilMax := 30, liquidMax := 40, bhp := 90, openShut := "SHUT" },
      { well := "PROD1", controlMode := "ORAT", oilMax := 20, bhp := 80 }],
    welopen := some [("PROD1", "SHUT"), ("PROD2", "OPEN")] }

/-- Well `i` of the manager. -/
def view (b : Option Built) (i : Nat) : M Obs :=
  match b with
  | some b => getWell b.wells i
  | none => .error .ub

/-- Whether the deck is read and well `i` is as given. -/
def shows (dk : Deck) (i : Nat) (o : Obs) : Bool :=
  match wellsFromDeck J0 toyModel box toyPerm dk >>= fun b => view b i with
  | .ok o' => decide (o' = o)
  | .error _ => false

/-- How reading a deck ends. -/
def ends (dk : Deck) : M Unit := wellsFromDeck J0 toyModel box toyPerm dk >>= fun _ => .ok ()

/-! ### A deck -/

/-- Repeated records of `WELSPECS` and `WCONPROD` replace the earlier ones; the first perforation is computed, the second given. -/
example : shows wellsDeck 0 { type := .producer, depth := 120, comp := [0, 0], cells := [0, 3], wi := [275 / 2, 5], name := some "PROD1", controls := [(.surfaceRate, -20, [0, 1]), (.bhp, 80, [0, 0])], current := -1 } = true := by decide +kernel

/-- The depth is that of the perforation; the well was shut on its second limit and is opened. -/
example : shows wellsDeck 1 { type := .producer, depth := 3, comp := [0, 0], cells := [4], wi := [7], name := some "PROD2", controls := [(.surfaceRate, -30, [0, 1]), (.surfaceRate, -40, [1, 1]), (.bhp, 90, [0, 0])], current := 1 } = true := by decide +kernel

example : shows wellsDeck 2 { type := .injector, depth := 250, comp := [1, 0], cells := [6], wi := [9], name := some "INJ", controls := [(.surfaceRate, 50, [1, 1]), (.bhp, 6891, [0, 0])], current := 0 } = true := by decide +kernel

theorem wellsDeck_read : ∃ b, wellsFromDeck J0 toyModel box toyPerm wellsDeck = .ok (some b) := by
  have h : shows wellsDeck 2 { type := .injector, depth := 250, comp := [1, 0], cells := [6], wi := [9], name := some "INJ", controls := [(.surfaceRate, 50, [1, 1]), (.bhp, 6891, [0, 0])], current := 0 } = true := by decide +kernel
  unfold shows at h
  cases hw : wellsFromDeck J0 toyModel box toyPerm wellsDeck with
  | error e => rw [hw] at h; simp at h
  | ok b =>
    rw [hw] at h
    cases b with
    | none => simp [view] at h
    | some b => exact ⟨b, rfl⟩

/-- The hypotheses of the theorems are met. -/
example : ∃ specs comp, wellsDeck.welspecs = some specs ∧ wellsDeck.compdat = some comp ∧ Acceptable toyModel box toyPerm wellsDeck specs comp :=
  (deck_is_read_iff J0 box_wellFormed).1 wellsDeck_read

/-! ### What one might not expect -/

/-- Two producers perforated by a template. -/
def templateDeck : Deck :=
  { water := true, oil := true, gas := false,
    welspecs := some [⟨"PROD1", "G", 1, 1, 100⟩, ⟨"PROD2", "G", 2, 1, -1⟩],
    compdat := some [⟨"PROD*", 0, 0, 1, 1, 5, 0, 0⟩],
    wconprod := some [{ well := "PROD1", controlMode := "BHP", bhp := 100 }, { well := "PROD2", controlMode := "BHP", bhp := 100 }] }

/-- **C75, negative.**  A name template in `COMPDAT` perforates the first well it fits and no other; the second one has no perforation, and its defaulted
reference depth is `1e100`. -/
theorem template_perforates_one :
    shows templateDeck 0 { type := .producer, depth := 100, comp := [0, 0], cells := [0], wi := [5], name := some "PROD1", controls := [(.bhp, 100, [0, 0])], current := 0 } = true ∧
    shows templateDeck 1 { type := .producer, depth := 10 ^ 100, comp := [0, 0], cells := [], wi := [], name := some "PROD2", controls := [(.bhp, 100, [0, 0])], current := 0 } = true := by
  constructor <;> decide +kernel

/-- A producer with the given perforation and control. -/
def oneWell (I J K : Int) (c : WconprodLine) (opens : List (String × String)) : Deck :=
  { water := true, oil := true, gas := false,
    welspecs := some [⟨"P", "G", 1, 1, 100⟩], compdat := some [⟨"P", I, J, K, K, 5, 0, 0⟩], wconprod := some [c], welopen := some opens }

/-- **C76, negative.**  Indices are not compared with the dimensions of the grid: with two cells in a row, I = 3 and J = 1 is taken for I = 1 and J = 2. -/
theorem index_wraps :
    shows (oneWell 3 1 1 { well := "P", controlMode := "BHP", bhp := 100 } []) 0
      { type := .producer, depth := 100, comp := [0, 0], cells := [2], wi := [5], name := some "P", controls := [(.bhp, 100, [0, 0])], current := 0 } = true ∧
    shows (oneWell 1 2 1 { well := "P", controlMode := "BHP", bhp := 100 } []) 0
      { type := .producer, depth := 100, comp := [0, 0], cells := [2], wi := [5], name := some "P", controls := [(.bhp, 100, [0, 0])], current := 0 } = true := by
  constructor <;> decide +kernel

/-- An inactive cell is an error. -/
example : ends (oneWell 2 2 1 { well := "P", controlMode := "BHP", bhp := 100 } []) = .error .thrown := by decide +kernel

/-- **C75, negative.**  A well under group control that is `SHUT` operates, on its first limit. -/
theorem shut_group_well_is_open :
    shows (oneWell 1 1 1 { well := "P", controlMode := "GRUP", oilMax := 10, openShut := "SHUT" } []) 0
      { type := .producer, depth := 100, comp := [0, 0], cells := [0], wi := [5], name := some "P", controls := [(.surfaceRate, -10, [0, 1]), (.bhp, 1, [0, 0])], current := 0 } = true := by decide +kernel

/-- **C75, negative.**  Opening a well under group control puts it on its first limit instead. -/
theorem opened_group_well_leaves_group :
    shows (oneWell 1 1 1 { well := "P", controlMode := "GRUP", oilMax := 10 } []) 0
      { type := .producer, depth := 100, comp := [0, 0], cells := [0], wi := [5], name := some "P", controls := [(.surfaceRate, -10, [0, 1]), (.bhp, 1, [0, 0])], current := -1 } = true ∧
    shows (oneWell 1 1 1 { well := "P", controlMode := "GRUP", oilMax := 10 } [("P", "OPEN")]) 0
      { type := .producer, depth := 100, comp := [0, 0], cells := [0], wi := [5], name := some "P", controls := [(.surfaceRate, -10, [0, 1]), (.bhp, 1, [0, 0])], current := 0 } = true := by constructor <;> decide +kernel

/-- **C76, negative.**  A shut well under group control without limits fails an assertion. -/
theorem shut_group_well_asserts : ends (oneWell 1 1 1 { well := "P", controlMode := "GRUP", bhp := 0, openShut := "SHUT" } []) = .error .assertFail := by decide +kernel

/-- **C76, negative.**  A well without control record has an indeterminate type. -/
theorem well_without_controls_ub :
    ends { water := true, oil := true, gas := false, welspecs := some [⟨"P", "G", 1, 1, 100⟩, ⟨"Q", "G", 1, 1, 100⟩], compdat := some [⟨"P", 1, 1, 1, 1, 5, 0, 0⟩], wconprod := some [{ well := "P", controlMode := "BHP", bhp := 100 }] } = .error .ub := by decide +kernel

/-- A tubing head pressure is an error. -/
example : ends (oneWell 1 1 1 { well := "P", controlMode := "BHP", bhp := 100, thp := 5 } []) = .error .thrown := by decide +kernel

/-- A mode without limit is an error. -/
example : ends (oneWell 1 1 1 { well := "P", controlMode := "ORAT", bhp := 100 } []) = .error .thrown := by decide +kernel

/-- A gas limit in an oil–water deck is an error. -/
example : ends (oneWell 1 1 1 { well := "P", controlMode := "BHP", bhp := 100, gasMax := 5 } []) = .error .thrown := by decide +kernel

end Opm.Manager
