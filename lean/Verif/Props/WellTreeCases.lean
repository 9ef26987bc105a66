import Verif.Props.WellTree
import Verif.Props.WellsManagerCases
/-!
# Groups of wells built from a deck: cases (C77, C78)
-/

namespace Opm.Manager
open Opm Wells Groups

/-- Three producers and an injector in two groups of a field: the first group shares an oil target, the field injects at a given rate. -/
def fieldDeck : FieldDeck :=
  { base :=
    { water := true, oil := true, gas := false,
      welspecs := some [⟨"P1", "G1", 1, 1, 100⟩, ⟨"P2", "G1", 2, 1, 100⟩, ⟨"P3", "G2", 1, 2, 100⟩, ⟨"I", "G2", 2, 2, 250⟩],
      compdat := some [⟨"P1", 0, 0, 1, 1, 5, 0, 0⟩, ⟨"P2", 0, 0, 2, 0, 7, 0, 0⟩, ⟨"P3", 0, 0, 2, 0, 7, 0, 0⟩, ⟨"I", 2, 2, 2, 2, 9, 0, 0⟩],
      wconinje := some [{ well := "I", injectorType := "WATER", controlMode := "GRUP", surfaceMax := 500 }],
      wconprod := some [{ well := "P1", controlMode := "GRUP", oilMax := 100 }, { well := "P2", controlMode := "GRUP" }, { well := "P3", controlMode := "ORAT", oilMax := 15 }] },
    gruptree := some [("G1", "FIELD"), ("G2", "G1"), ("G2", "FIELD")],
    gconinje := some [{ group := "FIELD", injectorType := "WATER", controlMode := "RATE", surfaceMax := 80 }],
    gconprod := some [{ group := "G1", controlMode := "ORAT", oilMax := 60, procedure := "RATE" }],
    wgrupcon := some [{ well := "P1", guideRate := 5, phase := "OIL" }, { well := "P1", guideRate := 2, phase := "OIL" }] }

def fieldSpecs : List WelspecsLine := fieldDeck.base.welspecs.getD []

/-- How reading the deck ends, with wells and groups. -/
def fieldEnds (dk : FieldDeck) : M Unit := wellsManager J0 toyModel box toyPerm dk >>= fun _ => .ok ()

/-- The groups and wells that remain, in preorder, with the numbers of wells. -/
def outline : Node → List (String × Option Int)
  | .group n _ _ cs => (n, none) :: outlineAll cs
  | .well n _ _ s _ => [(n, some s)]
where outlineAll : List Node → List (String × Option Int)
  | [] => []
  | c :: cs => outline c ++ outlineAll cs

/-- Whether the deck is read and the hierarchy is as given. -/
def fieldTree (dk : FieldDeck) (ns : List (String × Option Int)) : Bool :=
  match wellsManager J0 toyModel box toyPerm dk with
  | .ok (some (rs, _)) => decide (outline.outlineAll rs = ns)
  | _ => false

/-- Whether the deck is read and the controls of well `i` are as given. -/
def fieldControls (dk : FieldDeck) (i : Nat) (cur : Int) (cs : List (CtrlType × Rat × List Rat)) : Bool :=
  match wellsManager J0 toyModel box toyPerm dk with
  | .ok (some (_, s)) => (match getWell s i with
    | .ok o => decide (o.current = cur) && decide (o.controls = cs)
    | .error _ => false)
  | _ => false

/-! ### The deck -/

example : fieldTree fieldDeck [("FIELD", none), ("G1", none), ("P1", some 0), ("P2", some 1), ("G2", none), ("P3", some 2), ("I", some 3)] = true := by decide +kernel

example : fieldControls fieldDeck 0 2 [(.surfaceRate, -100, [0, 1]), (.bhp, 1, [0, 0]), (.surfaceRate, -40, [0, 1])] = true := by decide +kernel

example : fieldControls fieldDeck 2 0 [(.surfaceRate, -15, [0, 1]), (.bhp, 1, [0, 0])] = true := by decide +kernel

example : fieldControls fieldDeck 3 2 [(.surfaceRate, 500, [1, 1]), (.bhp, 6891, [0, 0]), (.surfaceRate, 80, [1, 1])] = true := by decide +kernel

/-- The members of groups. -/
def fieldMembers : List (String × String) := [("G1", "FIELD"), ("G2", "FIELD"), ("P1", "G1"), ("P2", "G1"), ("P3", "G2"), ("I", "G2")]

theorem field_member {a b : String} (h : Member fieldDeck fieldSpecs a b) : (a, b) ∈ fieldMembers := by
  rcases h with h | ⟨l, hl, rfl, rfl⟩
  · have h1 : (a, b) ∈ [("G1", "FIELD"), ("G2", "G1"), ("G2", "FIELD")] := (lastFor_mem h).1
    simp only [List.mem_cons, Prod.mk.injEq, List.not_mem_nil, or_false] at h1
    rcases h1 with ⟨rfl, rfl⟩ | ⟨rfl, rfl⟩ | ⟨rfl, rfl⟩
    · decide +kernel
    · revert h
      decide +kernel
    · decide +kernel
  · revert l
    decide +kernel

def fieldLevel (s : String) : Nat := if s = "FIELD" then 2 else if s = "G1" ∨ s = "G2" then 1 else 0

theorem field_tree : TreeOk fieldDeck fieldSpecs := by
  refine ⟨by decide +kernel, by decide +kernel, ?_, fieldLevel, ?_⟩
  · intro a b h
    have key : ∀ e ∈ fieldMembers, e.2 ∉ fieldSpecs.map WelspecsLine.name := by decide +kernel
    exact key _ (field_member h)
  · intro a b h
    have key : ∀ e ∈ fieldMembers, fieldLevel e.1 < fieldLevel e.2 := by decide +kernel
    exact key _ (field_member h)

/-- A set of names that contains all groups of its members contains everything above them. -/
theorem field_below (S : List String) (hS : ∀ e ∈ fieldMembers, e.1 ∈ S → e.2 ∈ S) {a b : String} (h : Below fieldDeck fieldSpecs a b) (ha : a ∈ S) : b ∈ S := by
  induction h with
  | single h => exact hS _ (field_member h) ha
  | tail _ h ih => exact hS _ (field_member h) ih

theorem field_irreflexive {a b : String} (h : Below fieldDeck fieldSpecs a b) : fieldLevel a < fieldLevel b := by
  have key : ∀ e ∈ fieldMembers, fieldLevel e.1 < fieldLevel e.2 := by decide +kernel
  induction h with
  | single h => exact key _ (field_member h)
  | tail _ h ih => exact ih.trans (key _ (field_member h))

theorem field_records : RecordsOk fieldDeck fieldSpecs := by
  refine ⟨by unfold FluidOk; decide +kernel, ?_, ?_, by decide +kernel, by decide +kernel⟩
  · intro l hl
    simp only [fieldDeck, Option.getD_some, List.mem_singleton] at hl
    subst hl
    exact ⟨by unfold FluidOk; decide +kernel, .rate, rfl⟩
  · intro l hl
    simp only [fieldDeck, Option.getD_some, List.mem_singleton] at hl
    subst hl
    exact ⟨⟨.orat, rfl⟩, by decide +kernel⟩

theorem field_prodTarget {G : String} {l : GconprodLine} {m : ProdMode} (h : ProdTarget fieldDeck fieldSpecs G l m) : G = "G1" ∧ l.controlMode = "ORAT" := by
  obtain ⟨h1, h2⟩ := lastFor_mem h.record
  simp only [fieldDeck, Option.getD_some, List.mem_singleton] at h1
  subst h1
  exact ⟨h2.symm, rfl⟩

theorem field_injTarget {G : String} {l : GconinjeLine} {m : InjMode} (h : InjTarget fieldDeck fieldSpecs G l m) : G = "FIELD" := by
  obtain ⟨h1, h2⟩ := lastFor_mem h.record
  simp only [fieldDeck, Option.getD_some, List.mem_singleton] at h1
  subst h1
  exact h2.symm

theorem field_prodSharing : ProdSharing fieldDeck fieldSpecs := by
  refine ⟨by decide +kernel, ?_, ?_, ?_, fun _ _ _ _ _ => rfl⟩
  · intro G H l l' m m' h h' hb
    rw [(field_prodTarget h).1, (field_prodTarget h').1] at hb
    exact lt_irrefl _ (field_irreflexive hb)
  · intro G l m h
    rw [(field_prodTarget h).1]
    exact ⟨"P1", by decide +kernel, .single (.inr ⟨⟨"P1", "G1", 1, 1, 100⟩, by decide +kernel, rfl, rfl⟩), by decide +kernel⟩
  · intro G l m h n hn hb _
    rw [(field_prodTarget h).1] at hb
    have hmem : n ∈ ["P1", "P2", "P3"] := hn.2
    simp only [List.mem_cons, List.not_mem_nil, or_false] at hmem
    rcases hmem with rfl | rfl | rfl
    · exact ⟨{ well := "P1", controlMode := "GRUP", oilMax := 100 }, by decide +kernel, rfl⟩
    · exact ⟨{ well := "P2", controlMode := "GRUP" }, by decide +kernel, rfl⟩
    · have := field_below ["P3", "G2", "FIELD"] (by decide +kernel) hb (by decide +kernel)
      exact absurd this (by decide +kernel)

theorem field_injSharing : InjSharing fieldDeck fieldSpecs := by
  refine ⟨by decide +kernel, ?_, ?_, ?_⟩
  · intro G H l l' m m' h h' hb
    rw [field_injTarget h, field_injTarget h'] at hb
    exact lt_irrefl _ (field_irreflexive hb)
  · intro G l m h
    rw [field_injTarget h]
    exact ⟨"I", by decide +kernel, .tail (.single (.inr ⟨⟨"I", "G2", 2, 2, 250⟩, by decide +kernel, rfl, rfl⟩)) (.inl (by decide +kernel)), by decide +kernel⟩
  · intro G l m h n hn hb _
    have hmem : n ∈ ["I"] := hn.2
    simp only [List.mem_singleton] at hmem
    subst hmem
    exact ⟨{ well := "I", injectorType := "WATER", controlMode := "GRUP", surfaceMax := 500 }, by decide +kernel, rfl⟩

/-- The hypotheses of the theorems are met. -/
theorem field_meets : ∃ comp, fieldDeck.base.welspecs = some fieldSpecs ∧ fieldDeck.base.compdat = some comp ∧ Acceptable toyModel box toyPerm fieldDeck.base fieldSpecs comp ∧
    TreeOk fieldDeck fieldSpecs ∧ RecordsOk fieldDeck fieldSpecs ∧ ProdSharing fieldDeck fieldSpecs ∧ InjSharing fieldDeck fieldSpecs ∧
    ∃ l, ProdTarget fieldDeck fieldSpecs "G1" l .orat ∧ l.limit .orat = 60 := by
  have h : fieldControls fieldDeck 2 0 [(.surfaceRate, -15, [0, 1]), (.bhp, 1, [0, 0])] = true := by decide +kernel
  have hread : ∃ b, wellsFromDeck J0 toyModel box toyPerm fieldDeck.base = .ok (some b) := by
    unfold fieldControls wellsManager at h
    cases hw : wellsFromDeck J0 toyModel box toyPerm fieldDeck.base with
    | error e => rw [hw] at h; simp at h
    | ok b =>
      rw [hw] at h
      cases b with
      | none => simp at h
      | some b => exact ⟨b, rfl⟩
  obtain ⟨specs, comp, h1, h2, ha⟩ := (deck_is_read_iff J0 box_wellFormed).1 hread
  have : specs = fieldSpecs := by
    have e : fieldDeck.base.welspecs = some fieldSpecs := rfl
    rw [e] at h1
    cases h1
    rfl
  subst this
  exact ⟨comp, h1, h2, ha, field_tree, field_records, field_prodSharing, field_injSharing, { group := "G1", controlMode := "ORAT", oilMax := 60, procedure := "RATE" },
    ⟨⟨"FIELD", .inr (.inl (by decide +kernel))⟩, by decide +kernel, rfl, by decide⟩, rfl⟩

/-! ### What one might not expect -/

/-- Two producers in the given groups, with the given tree and group records. -/
def twoWells (g1 g2 : String) (tree : List (String × String)) (prods : List GconprodLine) (guides : List WgrupconLine) : FieldDeck :=
  { base :=
    { water := true, oil := true, gas := false,
      welspecs := some [⟨"P1", g1, 1, 1, 100⟩, ⟨"P2", g2, 2, 1, 100⟩], compdat := some [⟨"P1", 0, 0, 1, 1, 5, 0, 0⟩, ⟨"P2", 0, 0, 2, 0, 7, 0, 0⟩],
      wconprod := some [{ well := "P1", controlMode := "GRUP", oilMax := 100 }, { well := "P2", controlMode := "GRUP", oilMax := 100 }] },
    gruptree := some tree, gconprod := some prods, wgrupcon := some guides }

/-- **C77, negative.**  A group that is a well is cast to a group: undefined behaviour. -/
theorem well_as_group_ub : fieldEnds (twoWells "G" "P1" [] [] []) = .error .ub := by decide +kernel

/-- **C77, negative.**  Groups that belong to each other disappear, with their targets: the wells of group A get a new root of that name, and the
production target of B, above A in the deck, is not applied. -/
theorem circle_is_lost :
    fieldTree (twoWells "A" "A" [("A", "B"), ("B", "A")] [{ group := "B", controlMode := "ORAT", oilMax := 60 }] []) [("A", none), ("P1", some 0), ("P2", some 1)] = true ∧
    fieldControls (twoWells "A" "A" [("A", "B"), ("B", "A")] [{ group := "B", controlMode := "ORAT", oilMax := 60 }] []) 0 (-1) [(.surfaceRate, -100, [0, 1]), (.bhp, 1, [0, 0])] = true ∧
    fieldControls (twoWells "A" "A" [("A", "B")] [{ group := "B", controlMode := "ORAT", oilMax := 60 }] []) 0 2
      [(.surfaceRate, -100, [0, 1]), (.bhp, 1, [0, 0]), (.surfaceRate, -30, [0, 1])] = true := by
  refine ⟨?_, ?_, ?_⟩ <;> decide +kernel

/-- **C77, negative.**  A guide rate for an unknown well fails an assertion: the name is looked up as well 0. -/
theorem unknown_guide_asserts : fieldEnds (twoWells "G" "G" [] [] [{ well := "P", guideRate := 1, phase := "OIL" }]) = .error .assertFail := by decide +kernel

/-- **C78, negative.**  The defaulted guide rate is −1, and is used: one producer gets a positive rate target, that is, it should inject. -/
theorem default_guide_injects :
    fieldControls (twoWells "G" "G" [] [{ group := "G", controlMode := "ORAT", oilMax := 60 }] [{ well := "P1", phase := "OIL" }, { well := "P2", guideRate := 3, phase := "OIL" }]) 0 2
      [(.surfaceRate, -100, [0, 1]), (.bhp, 1, [0, 0]), (.surfaceRate, 30, [0, 1])] = true ∧
    fieldControls (twoWells "G" "G" [] [{ group := "G", controlMode := "ORAT", oilMax := 60 }] [{ well := "P1", phase := "OIL" }, { well := "P2", guideRate := 3, phase := "OIL" }]) 1 2
      [(.surfaceRate, -100, [0, 1]), (.bhp, 1, [0, 0]), (.surfaceRate, -90, [0, 1])] = true := by
  constructor <;> decide +kernel

/-- Wells named twice in `WELSPECS`. -/
def repeated (guides : List WgrupconLine) : FieldDeck :=
  { base :=
    { water := true, oil := true, gas := false,
      welspecs := some [⟨"P1", "G", 1, 1, 100⟩, ⟨"P1", "G", 1, 1, 120⟩, ⟨"P2", "G", 2, 1, 100⟩], compdat := some [⟨"P1", 0, 0, 1, 1, 5, 0, 0⟩, ⟨"P2", 0, 0, 2, 0, 7, 0, 0⟩],
      wconprod := some [{ well := "P1", controlMode := "GRUP", oilMax := 100 }, { well := "P2", controlMode := "GRUP", oilMax := 100 }] },
    gconprod := some [{ group := "G", controlMode := "ORAT", oilMax := 60 }], wgrupcon := some guides }

/-- **C77, negative.**  A second record of `WELSPECS` about a well is an additional well of the hierarchy, so that the numbers of later wells are wrong: group
controls address a well that does not exist, and guide rates fail an assertion. -/
theorem repeated_well_ub : ends (repeated []).base = .ok () ∧ fieldEnds (repeated []) = .error .ub ∧
    fieldEnds (repeated [{ well := "P2", guideRate := 1, phase := "OIL" }]) = .error .assertFail := by
  refine ⟨?_, ?_, ?_⟩ <;> decide +kernel

/-- An unknown injected fluid of a group is an error. -/
example : fieldEnds { fieldDeck with gconinje := some [{ group := "G1", injectorType := "MULTI", controlMode := "RATE" }] } = .error .thrown := by decide +kernel

/-- A guide rate for a phase other than oil is an error. -/
example : fieldEnds (twoWells "G" "G" [] [] [{ well := "P1", guideRate := 1, phase := "WAT" }]) = .error .thrown := by decide +kernel

end Opm.Manager
