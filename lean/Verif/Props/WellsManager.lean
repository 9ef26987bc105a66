import Verif.Proofs.WellsManagerDeck
import Verif.Props.Wells
/-!
# Wells built from a deck (C75, C76)

`WellOk` and `Acceptable` (`Verif.Spec.WellsManager`) say what a deck means; the theorems say that the constructor of `WellsManager` builds exactly that, for
every deck.
-/

namespace Opm.Manager
open Opm Wells Groups

/-- **C75.**  If a deck is read, there is one well for each name in `WELSPECS`, in order of first appearance, and each has the name, type, reference depth,
perforations, connection factors, limits, current control and injected fluid that the deck asks for. -/
theorem deck_wells {J : Junk} {pm : Peaceman} {g : Grid} {perm : List Rat} {dk : Deck} {b : Built} (hg : g.WellFormed)
    (h : wellsFromDeck J pm g perm dk = .ok (some b)) :
    ∃ specs comp, dk.welspecs = some specs ∧ dk.compdat = some comp ∧ b.names = declared specs ∧ b.wells.nw = (declared specs).length ∧
      ∀ (i : Nat) n, (declared specs)[i]? = some n → ∃ o, getWell b.wells i = .ok o ∧ WellOk pm g perm dk specs comp n o := by
  unfold wellsFromDeck at h
  split at h
  · cases h
  rename_i hd
  split at h
  · rename_i specs comp h1 h2
    split at h
    · cases h
    rw [bind_eq_ok] at h
    obtain ⟨b', hb, h⟩ := h
    cases h
    obtain ⟨-, k1, -, -, -, ws, r, hl, -, hw⟩ := build_sound (by simpa using hd) hg hb
    refine ⟨specs, comp, h1, h2, k1, by rw [r.nw, hl], ?_⟩
    intro i n hn
    have hil := (List.getElem?_eq_some_iff.1 hn).1
    have hwi : ws[i]? = some ws[i] := List.getElem?_eq_getElem (by omega)
    exact ⟨_, r.get i _ hwi, hw i n _ hn hwi⟩
  · cases h

/-- **C76.**  A deck is read exactly if it is acceptable; everything else ends in an exception, a failed assertion or undefined behaviour. -/
theorem deck_is_read_iff (J : Junk) {pm : Peaceman} {g : Grid} {perm : List Rat} {dk : Deck} (hg : g.WellFormed) :
    (∃ b, wellsFromDeck J pm g perm dk = .ok (some b)) ↔
      ∃ specs comp, dk.welspecs = some specs ∧ dk.compdat = some comp ∧ Acceptable pm g perm dk specs comp := by
  constructor
  · rintro ⟨b, h⟩
    unfold wellsFromDeck at h
    split at h
    · cases h
    rename_i hd
    split at h
    · rename_i specs comp h1 h2
      split at h
      · cases h
      rename_i hk
      rw [bind_eq_ok] at h
      obtain ⟨b', hb, h⟩ := h
      have hd' : g.dimensions = 3 := by simpa using hd
      obtain ⟨⟨a1, a2, a3, a4, a5, a6, a7, a8, a9, a10⟩, -⟩ := build_sound hd' hg hb
      exact ⟨specs, comp, h1, h2, ⟨hd', a1, by rw [← not_and_or]; exact hk, a2, a3, a4, a5, a6, a7, a8, a9, a10⟩⟩
    · cases h
  · rintro ⟨specs, comp, h1, h2, ha⟩
    obtain ⟨b, hb⟩ := build_ok hg ha J
    refine ⟨b, ?_⟩
    unfold wellsFromDeck
    rw [if_neg (by simp [ha.dims]), h1, h2]
    simp only
    rw [if_neg (by rw [not_and_or]; exact ha.keywords), hb, bind_ok]

/-- **C76.**  The manager has no wells exactly if the grid is three-dimensional and `WELSPECS` or `COMPDAT` is missing. -/
theorem no_wells_iff (J : Junk) (pm : Peaceman) (g : Grid) (perm : List Rat) (dk : Deck) :
    wellsFromDeck J pm g perm dk = .ok none ↔ g.dimensions = 3 ∧ (dk.welspecs = none ∨ dk.compdat = none) := by
  unfold wellsFromDeck
  by_cases hd : g.dimensions = 3
  · rw [if_neg (by simp [hd])]
    cases h1 : dk.welspecs with
    | none => simp [hd]
    | some specs =>
      cases h2 : dk.compdat with
      | none => simp [hd]
      | some comp =>
        simp only [reduceCtorEq, or_self, and_false, iff_false]
        split
        · simp
        · rw [bind_eq_ok]
          rintro ⟨b, -, h⟩
          cases h
  · rw [if_pos hd]
    simp [hd]

/-! ### What decks cannot say -/

/-- **C76, negative.**  The loops that apply control records to all wells with a matching name are never reached with a name template: the classification
before them looks the template up as it stands. -/
theorem control_templates_rejected (J : Junk) {pm : Peaceman} {g : Grid} {perm : List Rat} {dk : Deck} (hg : g.WellFormed) {specs : List WelspecsLine}
    (hs : dk.welspecs = some specs) (hn : ∀ n ∈ declared specs, '*' ∉ n.toList) {p : String} (hp : '*' ∈ p.toList)
    (h : p ∈ (dk.wconinje.getD []).map WconinjeLine.well ∨ p ∈ (dk.wconprod.getD []).map WconprodLine.well) :
    ∀ b, wellsFromDeck J pm g perm dk ≠ .ok (some b) := by
  intro b hb
  obtain ⟨specs', comp, h1, -, ha⟩ := (deck_is_read_iff J hg).1 ⟨b, hb⟩
  rw [hs] at h1
  cases h1
  rcases h with h | h
  · obtain ⟨l, hl, rfl⟩ := List.mem_map.1 h
    exact hn _ (ha.injNames l hl) hp
  · obtain ⟨l, hl, rfl⟩ := List.mem_map.1 h
    exact hn _ (ha.prodNames l hl) hp

/-- **C76, negative.**  A well cannot be switched from injection to production in a deck: a name in both keywords is an error. -/
theorem both_kinds_rejected (J : Junk) {pm : Peaceman} {g : Grid} {perm : List Rat} {dk : Deck} (hg : g.WellFormed) {n : String}
    (h1 : n ∈ (dk.wconinje.getD []).map WconinjeLine.well) (h2 : n ∈ (dk.wconprod.getD []).map WconprodLine.well) :
    ∀ b, wellsFromDeck J pm g perm dk ≠ .ok (some b) := by
  intro b hb
  obtain ⟨specs, comp, -, -, ha⟩ := (deck_is_read_iff J hg).1 ⟨b, hb⟩
  obtain ⟨l, hl, rfl⟩ := List.mem_map.1 h1
  exact (ha.injLines l hl).2 _ (ha.injNames l hl) (matches_self _) h2

/-- **C75.**  All records of a keyword for a well but the last are without effect: two decks that differ only in earlier records of `WCONPROD` for a well
give it the same limits and the same current control. -/
theorem last_record_counts {J : Junk} {pm : Peaceman} {g : Grid} {perm : List Rat} {dk : Deck} {b : Built} (hg : g.WellFormed)
    (h : wellsFromDeck J pm g perm dk = .ok (some b)) {i : Nat} {n : String} (hn : b.names[i]? = some n) {l : WconprodLine} {pre post : List WconprodLine}
    (hl : dk.wconprod = some (pre ++ l :: post)) (hm : l.well = n) (hpost : ∀ x ∈ post, ¬Matches x.well n) :
    ∃ o, getWell b.wells i = .ok o ∧ o.type = .producer ∧ List.Forall₂ IsLimit (prodLimits (activePhases dk) l) o.controls ∧
      OperatesOn dk n (prodLimits (activePhases dk) l) l.controlMode l.openShut o.current := by
  obtain ⟨specs, comp, -, -, hnames, -, hw⟩ := deck_wells hg h
  rw [hnames] at hn
  obtain ⟨o, ho, hok⟩ := hw i n hn
  refine ⟨o, ho, ?_⟩
  rcases hok.control with ⟨-, hno, -⟩ | ⟨ht, l', ⟨a, c, hac, hm', hc'⟩, k1, k2, -⟩
  · exact absurd (List.mem_map.2 ⟨l, by rw [hl]; simp, hm⟩) hno
  · have : l' = l := by
      rw [hl, Option.getD_some] at hac
      rcases List.append_eq_append_iff.1 hac with ⟨x, hx, hy⟩ | ⟨x, hx, hy⟩
      · cases x with
        | nil => simp at hy; exact hy.1.symm
        | cons u x =>
          simp only [List.cons_append, List.cons.injEq] at hy
          exact absurd hm' (hpost l' (by rw [hy.2]; simp))
      · cases x with
        | nil => simp at hy; exact hy.1
        | cons u x =>
          simp only [List.cons_append, List.cons.injEq] at hy
          exact absurd (by rw [hm]; exact matches_self n) (hc' l (by rw [hy.2]; simp))
    subst this
    exact ⟨ht, k1, k2⟩

end Opm.Manager
