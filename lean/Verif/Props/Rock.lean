import Verif.Model.Rock
import Verif.Spec.Rock
import Verif.Proofs.Blocks
import Verif.Proofs.UniqueList
import Verif.Props.BlackoilBasic
import Verif.Props.EndPoints
import Mathlib.Tactic.IntervalCases
/-!
# Porosity and permeability of a deck
-/

namespace Opm.RockData
open Opm Opm.Blackoil Opm.SatFunc Opm.UniquePoints

/-- `classify` as a function of nine answers. -/
theorem classify_bools : ∀ xx xy xz yx yy yz zx zy zz : Bool, classify (fun i => [xx, xy, xz, yx, yy, yz, zx, zy, zz].getD i false) = .invalid ↔
    ((!xy || (xx && yy)) && (!xz || (xx && zz)) && (!yx || (yy && xx)) && (!yz || (yy && zz)) && (!zx || (zz && xx)) && (!zy || (zz && yy))) = false := by decide +kernel

theorem complete_iff (has : Nat → Bool) : classify has = .invalid ↔ ¬ Complete has := by
  have e : classify has = classify (fun i => [has 0, has 1, has 2, has 3, has 4, has 5, has 6, has 7, has 8].getD i false) := rfl
  rw [e, classify_bools, ← Bool.not_eq_true, not_iff_not]
  simp only [Bool.and_eq_true, Bool.or_eq_true, Bool.not_eq_true', ← Bool.not_eq_true, ← imp_iff_not_or]
  constructor
  · rintro ⟨⟨⟨⟨⟨h1, h2⟩, h3⟩, h4⟩, h5⟩, h6⟩ i j hi hj hij h
    interval_cases i <;> interval_cases j <;> first | exact absurd rfl hij | exact h1 h | exact h2 h | exact h3 h | exact h4 h | exact h5 h | exact h6 h
  · intro h
    exact ⟨⟨⟨⟨⟨h 0 1 (by decide) (by decide) (by decide), h 0 2 (by decide) (by decide) (by decide)⟩, h 1 0 (by decide) (by decide) (by decide)⟩, h 1 2 (by decide) (by decide) (by decide)⟩, h 2 0 (by decide) (by decide) (by decide)⟩,
      h 2 1 (by decide) (by decide) (by decide)⟩

/-! ### Which field a component is read from -/

theorem diag_map {α β : Type} (h : α → β) (v : Option α) (i j k : Nat) (s : List α × List Nat) : diag (v.map h) i j k (s.1.map h, s.2) = ((diag v i j k s).1.map h, (diag v i j k s).2) := by
  cases v <;> simp [diag]

theorem cross_map {α β : Type} (h : α → β) (v : Option α) (i j : Nat) (s : List α × List Nat) : cross (v.map h) i j (s.1.map h, s.2) = ((cross v i j s).1.map h, (cross v i j s).2) := by
  cases v <;> simp [cross]

/-- The list does not depend on what stands for a field. -/
theorem fill_map {α β : Type} (h : α → β) (z : α) (v : Nat → Option α) : fill (h z) (fun i => (v i).map h) = ((fill z v).1.map h, (fill z v).2) := by
  unfold fill
  have e : ([h z], List.replicate 9 0) = (([z] : List α).map h, (([z], List.replicate 9 0) : List α × List Nat).2) := rfl
  dsimp only
  rw [e, diag_map h _ _ _ _ ([z], List.replicate 9 0), cross_map, cross_map, cross_map, diag_map, cross_map, cross_map, cross_map, diag_map]

/-- Names of fields: their numbers, and 9 for the field of zeros. -/
theorem fill_bools : ∀ xx xy xz yx yy yz zx zy zz : Bool, ∀ i < 3, ∀ j < 3, let has := fun i => [xx, xy, xz, yx, yy, yz, zx, zy, zz].getD i false
    let t := fill 9 (fun i => if has i then some i else none)
    t.2.length = 9 ∧ t.1[t.2.getD (3 * i + j) 10]? = some ((keywordOf has i j).getD 9) := by decide +kernel

theorem fill_size : ∀ xx xy xz yx yy yz zx zy zz : Bool, let has := fun i => [xx, xy, xz, yx, yy, yz, zx, zy, zz].getD i false
    1 < (fill 9 (fun i => if has i then some i else none)).1.length ↔ (xx || xy || xz || yx || yy || yz || zx || zy || zz) = true := by decide +kernel

/-- The keywords given, as a list of answers. -/
theorem fill_fields (zero : List Rat) (perm : Nat → Option (List Rat)) :
    ((fill zero perm).2.length = 9 ∧ ∀ i j, i < 3 → j < 3 → (fill zero perm).1[(fill zero perm).2.getD (3 * i + j) 10]? = some (match keywordOf (fun k => (perm k).isSome) i j with | none => zero | some k => (perm k).getD [])) ∧
    (1 < (fill zero perm).1.length ↔ ∃ k, k < 9 ∧ (perm k).isSome = true) := by
  have e : fill zero perm = ((fill 9 (fun i => if [(perm 0).isSome, (perm 1).isSome, (perm 2).isSome, (perm 3).isSome, (perm 4).isSome, (perm 5).isSome, (perm 6).isSome, (perm 7).isSome, (perm 8).isSome].getD i false then some i else none)).1.map
      (fun k => if k = 9 then zero else (perm k).getD []), (fill 9 (fun i => if [(perm 0).isSome, (perm 1).isSome, (perm 2).isSome, (perm 3).isSome, (perm 4).isSome, (perm 5).isSome, (perm 6).isSome, (perm 7).isSome, (perm 8).isSome].getD i false then some i else none)).2) := by
    rw [← fill_map]
    have q : ∀ i, i < 9 → ∀ b, b = (perm i).isSome → Option.map (fun k => if k = 9 then zero else (perm k).getD []) (if b = true then some i else none) = perm i := fun i hi b hb => by
      subst hb
      cases h : perm i with
      | none => rfl
      | some v =>
        rw [Option.isSome_some, if_pos rfl, Option.map_some, if_neg (by omega), h]
        rfl
    unfold fill
    dsimp only
    rw [q 0 (by decide) ([(perm 0).isSome, (perm 1).isSome, (perm 2).isSome, (perm 3).isSome, (perm 4).isSome, (perm 5).isSome, (perm 6).isSome, (perm 7).isSome, (perm 8).isSome].getD 0 false) rfl, q 1 (by decide) ([(perm 0).isSome, (perm 1).isSome, (perm 2).isSome, (perm 3).isSome, (perm 4).isSome, (perm 5).isSome, (perm 6).isSome, (perm 7).isSome, (perm 8).isSome].getD 1 false) rfl, q 2 (by decide) ([(perm 0).isSome, (perm 1).isSome, (perm 2).isSome, (perm 3).isSome, (perm 4).isSome, (perm 5).isSome, (perm 6).isSome, (perm 7).isSome, (perm 8).isSome].getD 2 false) rfl, q 3 (by decide) ([(perm 0).isSome, (perm 1).isSome, (perm 2).isSome, (perm 3).isSome, (perm 4).isSome, (perm 5).isSome, (perm 6).isSome, (perm 7).isSome, (perm 8).isSome].getD 3 false) rfl, q 4 (by decide) ([(perm 0).isSome, (perm 1).isSome, (perm 2).isSome, (perm 3).isSome, (perm 4).isSome, (perm 5).isSome, (perm 6).isSome, (perm 7).isSome, (perm 8).isSome].getD 4 false) rfl, q 5 (by decide) ([(perm 0).isSome, (perm 1).isSome, (perm 2).isSome, (perm 3).isSome, (perm 4).isSome, (perm 5).isSome, (perm 6).isSome, (perm 7).isSome, (perm 8).isSome].getD 5 false) rfl, q 6 (by decide) ([(perm 0).isSome, (perm 1).isSome, (perm 2).isSome, (perm 3).isSome, (perm 4).isSome, (perm 5).isSome, (perm 6).isSome, (perm 7).isSome, (perm 8).isSome].getD 6 false) rfl, q 7 (by decide) ([(perm 0).isSome, (perm 1).isSome, (perm 2).isSome, (perm 3).isSome, (perm 4).isSome, (perm 5).isSome, (perm 6).isSome, (perm 7).isSome, (perm 8).isSome].getD 7 false) rfl, q 8 (by decide) ([(perm 0).isSome, (perm 1).isSome, (perm 2).isSome, (perm 3).isSome, (perm 4).isSome, (perm 5).isSome, (perm 6).isSome, (perm 7).isSome, (perm 8).isSome].getD 8 false) rfl]
    rfl
  rw [e]
  refine ⟨⟨(fill_bools _ _ _ _ _ _ _ _ _ 0 (by decide) 0 (by decide)).1, fun i j hi hj => ?_⟩, ?_⟩
  · have w := (fill_bools (perm 0).isSome (perm 1).isSome (perm 2).isSome (perm 3).isSome (perm 4).isSome (perm 5).isSome (perm 6).isSome (perm 7).isSome (perm 8).isSome i hi j hj).2
    dsimp only
    rw [List.getElem?_map, w, Option.map_some]
    have e2 : keywordOf (fun i => [(perm 0).isSome, (perm 1).isSome, (perm 2).isSome, (perm 3).isSome, (perm 4).isSome, (perm 5).isSome, (perm 6).isSome, (perm 7).isSome, (perm 8).isSome].getD i false) i j = keywordOf (fun k => (perm k).isSome) i j := by
      interval_cases i <;> interval_cases j <;> rfl
    rw [e2]
    have lt : ∀ k, keywordOf (fun k => (perm k).isSome) i j = some k → k ≠ 9 := by
      intro k hk
      have key : ∀ (l : List Nat), (∀ x ∈ l, x ≠ 9) → firstGiven (fun k => (perm k).isSome) l = some k → k ≠ 9 := by
        intro l
        induction l with
        | nil => intro _ h; cases h
        | cons a l ih =>
          intro h1 h2
          unfold firstGiven at h2
          split at h2
          · cases h2; exact h1 _ List.mem_cons_self
          · exact ih (fun x hx => h1 x (List.mem_cons_of_mem _ hx)) h2
      unfold keywordOf at hk
      split at hk
      · exact key _ (by intro x hx; simp only [List.mem_cons, List.not_mem_nil, or_false] at hx; omega) hk
      · exact key _ (by intro x hx; simp only [List.mem_cons, List.not_mem_nil, or_false] at hx; omega) hk
    cases hk : keywordOf (fun k => (perm k).isSome) i j with
    | none => rfl
    | some k =>
      dsimp only [Option.getD_some]
      rw [if_neg (lt k hk)]
  · dsimp only
    rw [List.length_map]
    refine (fill_size (perm 0).isSome (perm 1).isSome (perm 2).isSome (perm 3).isSome (perm 4).isSome (perm 5).isSome (perm 6).isSome (perm 7).isSome (perm 8).isSome).trans ?_
    constructor
    · intro h
      simp only [Bool.or_eq_true] at h
      rcases h with (((((((h | h) | h) | h) | h) | h) | h) | h) | h
      exacts [⟨0, by decide, h⟩, ⟨1, by decide, h⟩, ⟨2, by decide, h⟩, ⟨3, by decide, h⟩, ⟨4, by decide, h⟩, ⟨5, by decide, h⟩, ⟨6, by decide, h⟩, ⟨7, by decide, h⟩, ⟨8, by decide, h⟩]
    · rintro ⟨k, hk, h⟩
      interval_cases k <;> simp [h]

/-! ### Permeability of all cells -/

/-- The position of every cell lies in all fields which are given. -/
structure Covers (d : RockDeck) (g : RockGrid) : Prop where
  cart : 0 < g.cart
  pos : ∀ c, c < g.cells → ∃ pos, g.deckPos c = .ok pos ∧ pos < g.cart
  poro : ∀ v, d.poro = some v → v.length = g.cart
  perm : ∀ k v, d.perm k = some v → v.length = g.cart

theorem row_ok {tensor : List (List Rat)} {kmap : List Nat} {glob off i : Nat} {k : List Rat} (v : Nat → Rat) (hi : i < 3) (hv : ∀ j, j < 3 → (rd kmap (3 * i + j) >>= fun m => rd tensor m >>= fun t => rd t glob) = .ok (v j)) (hk : off + 9 ≤ k.length) :
    ∃ t, row tensor kmap glob off i k = .ok t ∧ t.length = k.length ∧ (∀ j, j < 3 → t.getD (off + (i * 3 + j)) 0 = if i = j then max (v j) 0 else v j) ∧ ∀ m, (∀ j, j < 3 → off + (i * 3 + j) ≠ m) → t.getD m 0 = k.getD m 0 := by
  obtain ⟨t, ht, h1, h2, h3⟩ := loop_writes (n := 3) (f := fun j k => do
      let m ← rd kmap (3 * i + j)
      let t ← rd tensor m
      let v ← rd t glob
      wr k (off + (3 * i + j)) v) (s := k) (fun j => off + (3 * i + j)) v (fun j hj => by omega) (fun a b _ _ e => by omega) (fun j t hj _ _ => by
    obtain ⟨m, e1, e⟩ := bind_eq_ok.1 (hv j hj)
    obtain ⟨f, e2, e3⟩ := bind_eq_ok.1 e
    rw [e1, bind_ok, e2, bind_ok, e3, bind_ok])
  have hr : rd t (off + 3 * i + i) = .ok (v i) := by
    rw [rd_ok (by omega)]
    have := h2 i hi
    rw [List.getD_eq_getElem?_getD, List.getElem?_eq_getElem (by omega)] at this
    simp only [← Nat.add_assoc] at this
    exact congrArg Except.ok this
  unfold row
  rw [ht, bind_ok, hr, bind_ok, wr_ok (by omega)]
  refine ⟨_, rfl, by rw [List.length_set, h1], fun j hj => ?_, fun m hm => ?_⟩
  · rw [getD_set' (by omega)]
    by_cases e : i = j
    · subst e
      rw [if_pos (by omega), if_pos rfl]
      split
      · rw [max_eq_right (by linarith)]
      · rw [max_eq_left (by linarith)]
    · rw [if_neg (by omega), if_neg e, show i * 3 = 3 * i by omega]
      exact h2 j hj
  · rw [getD_set' (by omega), if_neg (fun e => hm i hi (by omega))]
    exact h3 m (fun j hj e => hm j hj (by omega))

/-- Permeability of all cells. -/
theorem permeability_values {d : RockDeck} {g : RockGrid} (hc : Covers d g) (hv : Complete (fun k => (d.perm k).isSome)) : ∃ k valid, permeability d g = .ok (k, valid) ∧ k.length = 9 * g.cells ∧ valid.length = g.cells ∧
    ∀ c, c < g.cells → ∃ pos, g.deckPos c = .ok pos ∧ (∀ i j, i < 3 → j < 3 → k[9 * c + (3 * i + j)]? = some (component d.perm i j pos)) ∧ (valid[c]? = some true ↔ ∃ k, k < 9 ∧ (d.perm k).isSome = true) := by
  obtain ⟨⟨f1, f2⟩, f3⟩ := fill_fields (List.replicate g.cart 0) d.perm
  unfold permeability
  rw [check_ok (by simpa using hc.cart), bind_ok, if_neg (fun e => (complete_iff _).1 e hv)]
  dsimp only
  by_cases any : ∃ k, k < 9 ∧ (d.perm k).isSome = true
  · rw [if_pos (f3.2 any)]
    obtain ⟨⟨k, b⟩, e, h1, h2, h3, h4⟩ := loop_inv (n := g.cells) (f := fun c (r : List Rat × List Bool) => do
        let glob ← g.deckPos c
        let k ← loop 3 (fun i k => row (fill (List.replicate g.cart 0) d.perm).1 (fill (List.replicate g.cart 0) d.perm).2 glob (9 * c) i k) r.1
        .ok (k, r.2.set c true)) (s := (List.replicate (9 * g.cells) 0, List.replicate g.cells false))
      (P := fun m (r : List Rat × List Bool) => r.1.length = 9 * g.cells ∧ r.2.length = g.cells ∧ (∀ c, c < m → ∃ pos, g.deckPos c = .ok pos ∧ ∀ i j, i < 3 → j < 3 → r.1.getD (9 * c + (i * 3 + j)) 0 = component d.perm i j pos) ∧ ∀ c, c < m → r.2[c]? = some true)
      ⟨by simp, by simp, by simp, by simp⟩ (by
      rintro m ⟨k, b⟩ hm ⟨h1, h2, h3, h4⟩
      dsimp only at h1 h2 h3 h4 ⊢
      obtain ⟨pos, hp, hlt⟩ := hc.pos m hm
      have vals : ∀ i j, i < 3 → j < 3 → ∃ x, (rd (fill (List.replicate g.cart 0) d.perm).2 (3 * i + j) >>= fun m => rd (fill (List.replicate g.cart 0) d.perm).1 m >>= fun t => rd t pos) = .ok x ∧ component d.perm i j pos = if i = j then max x 0 else x := by
        intro i j hi hj
        have w := f2 i j hi hj
        have hk : (fill (List.replicate g.cart 0) d.perm).2[3 * i + j]? = some ((fill (List.replicate g.cart 0) d.perm).2.getD (3 * i + j) 10) := by
          rw [List.getD_eq_getElem?_getD, List.getElem?_eq_getElem (by omega)]
          rfl
        rw [rd_of_getElem? hk, bind_ok, rd_of_getElem? w, bind_ok]
        unfold component
        cases q : keywordOf (fun k => (d.perm k).isSome) i j with
        | none =>
          refine ⟨0, ?_, rfl⟩
          rw [rd_ok (by simpa using hlt)]
          simp
        | some k =>
          dsimp only
          have hs : (d.perm k).isSome = true := by
            have key : ∀ (l : List Nat), firstGiven (fun k => (d.perm k).isSome) l = some k → (d.perm k).isSome = true := by
              intro l
              induction l with
              | nil => intro h; cases h
              | cons a l ih =>
                intro h2
                unfold firstGiven at h2
                split at h2
                · next q => cases h2; exact q
                · exact ih h2
            unfold keywordOf at q
            split at q <;> exact key _ q
          obtain ⟨v, hv⟩ := Option.isSome_iff_exists.1 hs
          refine ⟨v.getD pos 0, ?_, by rw [hv]; rfl⟩
          rw [hv, Option.getD_some, rd_ok (by rw [hc.perm k v hv]; exact hlt), List.getD_eq_getElem?_getD, List.getElem?_eq_getElem (by rw [hc.perm k v hv]; exact hlt)]
          rfl
      choose! x hx hx' using vals
      obtain ⟨t, ht, t1, t2, t3⟩ := loop_blocks (n := 3) (f := fun i k => row (fill (List.replicate g.cart 0) d.perm).1 (fill (List.replicate g.cart 0) d.perm).2 pos (9 * m) i k) (s := k) (9 * m) 3 (fun i j => if i = j then max (x i j) 0 else x i j)
        (fun i t hi ht _ => by
          obtain ⟨t', a1, a2, a3, a4⟩ := row_ok (k := t) (off := 9 * m) (x i) hi (fun j hj => hx i j hi hj) (by omega)
          exact ⟨t', a1, by omega, a3, a4⟩)
      rw [hp, bind_ok, ht, bind_ok]
      refine ⟨_, rfl, by dsimp only; omega, by simpa using h2, fun c hcm => ?_, fun c hcm => ?_⟩
      · dsimp only
        by_cases e : c = m
        · subst e
          exact ⟨pos, hp, fun i j hi hj => by rw [t2 i j hi hj, hx' i j hi hj]⟩
        · obtain ⟨pos', q1, q2⟩ := h3 c (by omega)
          refine ⟨pos', q1, fun i j hi hj => ?_⟩
          rw [t3 _ (fun i' j' _ _ => by omega), q2 i j hi hj]
      · dsimp only
        rw [List.getElem?_set]
        by_cases e : m = c
        · rw [if_pos e, if_pos (by omega)]
        · rw [if_neg e]
          exact h4 c (by omega))
    refine ⟨k, b, e, h1, h2, fun c hcc => ?_⟩
    obtain ⟨pos, hp, hq⟩ := h3 c hcc
    refine ⟨pos, hp, fun i j hi hj => ?_, fun _ => any, fun _ => h4 c hcc⟩
    have := hq i j hi hj
    dsimp only at h1 this
    rw [List.getD_eq_getElem?_getD, List.getElem?_eq_getElem (by omega)] at this
    rw [List.getElem?_eq_getElem (by omega)]
    rw [← this]
    simp only [Nat.mul_comm 3 i, Option.getD_some]
  · rw [if_neg (fun e => any (f3.1 e))]
    refine ⟨_, _, rfl, by simp, by simp, fun c hcc => ?_⟩
    obtain ⟨pos, hp, hlt⟩ := hc.pos c hcc
    refine ⟨pos, hp, fun i j hi hj => ?_, fun h => ?_, fun h => absurd h any⟩
    · rw [List.getElem?_replicate, if_pos (by omega)]
      have no : ∀ k, k < 9 → (d.perm k).isSome = false := fun k hk => by
        by_contra e
        exact any ⟨k, hk, Bool.eq_true_of_not_eq_false e⟩
      unfold component keywordOf firstGiven firstGiven firstGiven firstGiven firstGiven
      simp only [no 0 (by decide), no 4 (by decide), no 8 (by decide), no (3 * i + i) (by omega), no (max (3 * i + j) (3 * j + i)) (by omega), no (min (3 * i + j) (3 * j + i)) (by omega)]
      split <;> simp
    · rw [List.getElem?_replicate, if_pos hcc] at h
      cases h

/-- Tensors are symmetric, and not negative on the diagonal. -/
theorem permeability_symmetric (perm : Nat → Option (List Rat)) (i j pos : Nat) : component perm i j pos = component perm j i pos ∧ 0 ≤ component perm i i pos := by
  constructor
  · unfold component keywordOf
    by_cases e : i = j
    · subst e; rfl
    · rw [if_neg e, if_neg (Ne.symm e), max_comm, min_comm]
      rw [if_neg e, if_neg (Ne.symm e)]
  · unfold component
    dsimp only
    rw [if_pos rfl]
    exact le_max_right _ _

/-- Porosity of all cells: the value at the position of the cell in the deck; 1 without PORO. -/
theorem porosity_values {d : RockDeck} {g : RockGrid} (hc : Covers d g) : ∃ l, porosity d g = .ok l ∧ l.length = g.cells ∧
    ∀ c, c < g.cells → (d.poro = none → l[c]? = some 1) ∧ ∀ v, d.poro = some v → ∃ pos x, g.deckPos c = .ok pos ∧ v[pos]? = some x ∧ l[c]? = some x := by
  unfold porosity
  cases h : d.poro with
  | none => exact ⟨_, rfl, by simp, fun c hcc => ⟨fun _ => by simp [hcc], by simp⟩⟩
  | some v =>
    dsimp only
    have hl := hc.poro v h
    have := hc.pos
    choose! pos hp hlt using this
    obtain ⟨t, ht, t1, t2, _⟩ := loop_writes (n := g.cells) (f := fun c l => do
      let pos ← g.deckPos c
      let x ← rd v pos
      wr l c x) (s := List.replicate g.cells 1) (fun c => c) (fun c => v.getD (pos c) 0) (fun i hi => by simpa using hi) (fun i j _ _ e => e) (fun i t hi _ _ => by
        have hx : v[pos i]? = some (v.getD (pos i) 0) := by
          rw [List.getD_eq_getElem?_getD, List.getElem?_eq_getElem (by rw [hl]; exact hlt i hi)]
          rfl
        rw [hp i hi, bind_ok, rd_of_getElem? hx, bind_ok])
    refine ⟨t, ht, by simpa using t1, fun c hcc => ⟨by simp, fun w hw => ?_⟩⟩
    cases hw
    have hx : v[pos c]? = some (v.getD (pos c) 0) := by
      rw [List.getD_eq_getElem?_getD, List.getElem?_eq_getElem (by rw [hl]; exact hlt c hcc)]
      rfl
    refine ⟨pos c, _, hp c hcc, hx, ?_⟩
    have w := t2 c hcc
    have hc' : c < t.length := by rw [t1]; simpa using hcc
    rw [List.getD_eq_getElem?_getD, List.getElem?_eq_getElem hc'] at w
    rw [List.getElem?_eq_getElem hc']
    exact congrArg some w

/-- Rock of a deck: accepted if components off the diagonal come with those on the diagonal; then porosity and permeability of each cell are those of its position in the deck. -/
theorem rock_from_deck {d : RockDeck} {g : RockGrid} (hc : Covers d g) (hv : Complete (fun k => (d.perm k).isSome)) : ∃ r, Rock.init d g = .ok r ∧ r.poro.length = g.cells ∧ r.perm.length = 9 * g.cells ∧ ∀ c, c < g.cells → ∃ pos, g.deckPos c = .ok pos ∧
    (d.poro = none → r.poro[c]? = some 1) ∧ (∀ v, d.poro = some v → r.poro[c]? = v[pos]?) ∧ ∀ i j, i < 3 → j < 3 → r.perm[9 * c + (3 * i + j)]? = some (component d.perm i j pos) := by
  obtain ⟨l, hl, l1, l2⟩ := porosity_values hc
  obtain ⟨k, b, hk, k1, _, k2⟩ := permeability_values hc hv
  unfold Rock.init
  rw [hl, bind_ok, hk, bind_ok]
  refine ⟨_, rfl, l1, k1, fun c hcc => ?_⟩
  obtain ⟨pos, p1, p2, _⟩ := k2 c hcc
  refine ⟨pos, p1, (l2 c hcc).1, fun v hv => ?_, p2⟩
  obtain ⟨pos', x, q1, q2, q3⟩ := (l2 c hcc).2 v hv
  rw [p1] at q1
  cases q1
  rw [q2, q3]

/-- Otherwise the deck is rejected. -/
theorem rock_rejects {d : RockDeck} {g : RockGrid} (hc : Covers d g) (hv : ¬ Complete (fun k => (d.perm k).isSome)) : Rock.init d g = .error .thrown := by
  obtain ⟨l, hl, _⟩ := porosity_values hc
  unfold Rock.init permeability
  rw [hl, bind_ok, check_ok (by simpa using hc.cart), bind_ok, if_pos ((complete_iff _).2 hv)]
  rfl

/-- A grid without Cartesian dimensions fails an assertion. -/
theorem rock_needs_dimensions {d : RockDeck} {g : RockGrid} (h : g.cart = 0) : permeability d g = .error .assertFail := by
  unfold permeability check
  rw [if_neg (by simp [h])]
  rfl

/-! ### Examples -/

/-- PERMX and PERMZ for a grid with three positions of which the second is not active. -/
def exRock : RockDeck where
  poro := some [1 / 10, 1 / 5, 3 / 10]
  perm := fun k => if k = 0 then some [100, 200, 300] else if k = 8 then some [10, 20, -30] else none
def exRockGrid : RockGrid := { cells := 2, globalCell := some [0, 2], cart := 3 }

theorem ex_covers (d : RockDeck) (h1 : ∀ v, d.poro = some v → v.length = 3) (h2 : ∀ k v, d.perm k = some v → v.length = 3) : Covers d exRockGrid :=
  ⟨by decide, fun c hc => by have : c = 0 ∨ c = 1 := (by have := hc; unfold exRockGrid at this; dsimp only at this; omega); rcases this with rfl | rfl; exacts [⟨0, rfl, by decide⟩, ⟨2, rfl, by decide⟩], h1, h2⟩

example := rock_from_deck (d := exRock) (g := exRockGrid) (ex_covers _ (by intro v h; cases h; rfl) (by
  intro k v h
  unfold exRock at h
  dsimp only at h
  split at h
  · cases h; rfl
  · split at h
    · cases h; rfl
    · cases h)) (by intro i j hi hj hij h; interval_cases i <;> interval_cases j <;> first | exact absurd rfl hij | cases h)

example : Rock.init exRock exRockGrid = .ok ⟨[1 / 10, 3 / 10], [100, 0, 0, 0, 100, 0, 0, 0, 10, 300, 0, 0, 0, 300, 0, 0, 0, 0], [true, true]⟩ := by decide +kernel

/-- PERMXY without PERMY. -/
example : Rock.init { perm := fun k => if k ≤ 1 then some [1, 1, 1] else none } exRockGrid = .error .thrown := by decide +kernel

/-- PERMXY and PERMYX with different values are accepted, and the first is ignored. -/
theorem contradicting_components : Rock.init { perm := fun k => if k = 1 then some [5, 5, 5] else if k = 3 then some [7, 7, 7] else if k = 0 ∨ k = 4 then some [10, 10, 10] else none } { cells := 1, cart := 3 } =
    .ok ⟨[1], [10, 7, 0, 7, 10, 0, 0, 0, 10], [true]⟩ := by decide +kernel

/-- Tensors need not be positive definite: flow along (1, -1, 0) goes up the pressure. -/
theorem tensor_not_positive : ∃ k, Rock.init { perm := fun k => if k = 1 then some [2] else if k = 0 ∨ k = 4 then some [1] else none } { cells := 1, cart := 1 } = .ok ⟨[1], k, [true]⟩ ∧
    (1 * (k.getD 0 0 * 1 + k.getD 1 0 * -1) + -1 * (k.getD 3 0 * 1 + k.getD 4 0 * -1) : Rat) < 0 := ⟨[1, 2, 0, 2, 1, 0, 0, 0, 1], by decide +kernel, by decide +kernel⟩

/-- A deck without permeability is accepted, and nothing flows. -/
theorem no_permeability : Rock.init {} { cells := 1, cart := 1 } = .ok ⟨[1], List.replicate 9 0, [false]⟩ := by decide +kernel

end Opm.RockData
