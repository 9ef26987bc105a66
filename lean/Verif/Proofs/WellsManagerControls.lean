import Verif.Proofs.WellsManager
import Verif.Proofs.WellsGroup
import Mathlib.Tactic.IntervalCases
/-! # Controls of the wells of a deck -/

namespace Opm.Manager
open Opm Wells Groups

/-! ### Single wells of the container -/

theorem modify_set {α : Type} (ws : List α) (i : Nat) (x : α) (f : α → α) : (ws.set i x).modify i f = ws.set i (f x) := by
  apply List.ext_getElem?
  intro k
  rw [List.getElem?_modify, List.getElem?_set, List.getElem?_set]
  by_cases h : i = k
  · subst h
    by_cases hi : i < ws.length <;> simp [hi]
  · simp [h]

theorem modify_of_get {α : Type} {ws : List α} {i : Nat} {x : α} (h : ws[i]? = some x) (f : α → α) : ws.modify i f = ws.set i (f x) := by
  apply List.ext_getElem?
  intro k
  rw [List.getElem?_modify, List.getElem?_set]
  by_cases hk : i = k
  · subst hk
    simp [(List.getElem?_eq_some_iff.1 h).1, (List.getElem?_eq_some_iff.1 h).2]
  · simp [hk]

theorem map_set_same {α β : Type} {ws : List α} {i : Nat} {x y : α} (h : ws[i]? = some x) (g : α → β) (hg : g y = g x) : (ws.set i y).map g = ws.map g := by
  apply List.ext_getElem?
  intro k
  rw [List.getElem?_map, List.getElem?_map, List.getElem?_set]
  by_cases hk : i = k
  · subst hk
    simp [(List.getElem?_eq_some_iff.1 h).1, (List.getElem?_eq_some_iff.1 h).2, hg]
  · simp [hk]

theorem set_set_same {α : Type} (ws : List α) (i : Nat) (x y : α) : (ws.set i x).set i y = ws.set i y := by simp

/-- Overwriting the component fractions of one well. -/
theorem _root_.Opm.Wells.WRep.setComp {np : Nat} {s : W} {ws : List Well} (h : WRep np s ws) (i : Nat) (w : Well) (hw : ws[i]? = some w) (cf : List Rat)
    (hcf : np ≤ cf.length) : ∃ s', setFractions np i cf s = .ok s' ∧ WRep np s' (ws.set i { w with comp := cf.take np }) := by
  have hi := (List.getElem?_eq_some_iff.1 hw).1
  have hrows : ∀ r ∈ ws.map Well.comp, r.length = np := by
    intro r hr
    obtain ⟨x, hx, rfl⟩ := List.mem_map.1 hr
    exact h.rcomp x hx
  have hri : (ws.map Well.comp)[i]? = some w.comp := by rw [List.getElem?_map, hw]; rfl
  have hpre : (((ws.map Well.comp).take i).flatten).length = i * np := by
    rw [length_flatten_rows (fun r hr => hrows r (List.mem_of_mem_take hr)), List.length_take, List.length_map, Nat.min_eq_left (by omega)]
  unfold setFractions
  have hcomp := h.comp
  rw [flatten_split hri, List.append_assoc, List.append_assoc] at hcomp
  rw [hcomp, memcpy_mid hpre (hrows _ (List.mem_of_getElem? hri)) hcf, bind_ok]
  refine ⟨_, rfl, ?_⟩
  have hlen : (ws.set i { w with comp := cf.take np }).length = ws.length := List.length_set
  have hmap : ∀ {β : Type} (g : Well → β), g { w with comp := cf.take np } = g w → (ws.set i { w with comp := cf.take np }).map g = ws.map g :=
    fun g hg => map_set_same hw g hg
  have hflat : ∀ {β : Type} (g : Well → List β), g { w with comp := cf.take np } = g w →
      (ws.set i { w with comp := cf.take np }).flatMap g = ws.flatMap g := by
    intro β g hg
    rw [List.flatMap_def, List.flatMap_def, hmap g hg]
  have hstart : ∀ k, start (ws.set i { w with comp := cf.take np }) k = start ws k := by
    intro k
    unfold start
    rw [List.flatMap_def, List.flatMap_def, List.map_take, List.map_take, hmap _ rfl]
  have hmem : ∀ x ∈ ws.set i { w with comp := cf.take np }, x ∈ ws ∨ x = { w with comp := cf.take np } := by
    intro x hx
    exact List.mem_or_eq_of_mem_set hx
  refine ⟨h.hnp, by rw [hlen]; exact h.nw, by rw [hlen]; exact h.cap, by rw [hlen, hstart]; exact h.pcap, h.ltype, h.ldepth, h.lpos, h.lcells, ?_, ?_,
    ?_, ?_, ?_, ?_, ?_, ?_, ?_, ?_⟩
  · intro x hx
    rcases hmem x hx with hx | rfl
    · exact h.rcomp x hx
    · simp [hcf]
  · intro x hx
    rcases hmem x hx with hx | rfl
    · exact h.rwi x hx
    · exact h.rwi w (List.mem_of_getElem? hw)
  · rw [hlen, hmap _ rfl]; exact h.type
  · rw [hlen, hmap _ rfl]; exact h.depth
  · have hset : (ws.set i { w with comp := cf.take np }).map Well.comp = (ws.map Well.comp).set i (cf.take np) := by
      rw [List.map_set]
    rw [hlen, hset, List.set_eq_take_append_cons_drop, if_pos (by simpa using hi), List.flatten_append, List.flatten_cons]
    simp
  · rw [hlen, hmap _ rfl]; exact h.name
  · rw [hlen]
    simp only
    rw [h.pos]
    exact List.map_congr_left (fun k _ => (hstart k).symm)
  · rw [hlen, hstart, hflat _ rfl]; exact h.cells
  · rw [hlen, hstart, hflat _ rfl]; exact h.wi
  · obtain ⟨C, hC, hCl, hCr⟩ := h.ctrls
    refine ⟨C, by rw [hlen]; exact hC, by rw [hlen]; exact hCl, ?_⟩
    intro k c x hc hx
    rw [List.getElem?_set] at hx
    by_cases hk : i = k
    · subst hk
      simp only [if_true, hi] at hx
      cases hx
      have := hCr i c w hc hw
      exact ⟨this.num, this.cur, this.lty, this.lta, this.hs, this.hc, this.rows, this.distr, this.types, this.targets⟩
    · rw [if_neg hk] at hx
      exact hCr k c x hc hx

/-- Writing the current control of one well without a test. -/
theorem _root_.Opm.Wells.WRep.writeCurrent {np : Nat} {s : W} {ws : List Well} (h : WRep np s ws) (i : Nat) (w : Well) (hw : ws[i]? = some w) (c : Controls)
    (hc : s.ctrls[i]? = some c) (cur : Int) : WRep np { s with ctrls := s.ctrls.set i { c with current := cur } } (ws.set i { w with current := cur }) := by
  obtain ⟨c', hc', hr, -⟩ := h.ctrlAt i _ hw
  rw [hc] at hc'
  cases hc'
  have := h.setCtrl i _ hw { c with current := cur } (fun x => { x with current := cur }) (fun x => ⟨rfl, rfl, rfl, rfl, rfl, rfl⟩)
    ⟨hr.num, rfl, hr.lty, hr.lta, hr.hs, hr.hc, hr.rows, hr.distr, hr.types, hr.targets⟩
  rwa [modify_of_get hw] at this

/-! ### Phases -/

theorem pu_cases {dk : Deck} {pu : PhaseUsage} (h : phaseUsageFromDeck dk.water dk.oil dk.gas = .ok pu) :
    pu.num = (activePhases dk).length ∧ pu.num ≤ 3 ∧ 2 ≤ pu.num ∧ Phase.liquid ∈ activePhases dk ∧ (∀ p, pu.used p = true ↔ p ∈ activePhases dk) ∧
    (∀ p ∈ activePhases dk, ([0, 0, 0] : List Rat).set (pu.pos p) 1 = weightsOf (activePhases dk) [p] ++ List.replicate (3 - pu.num) 0) ∧
    (Phase.aqua ∈ activePhases dk → (([0, 0, 0] : List Rat).set (pu.pos .aqua) 1).set (pu.pos .liquid) 1 =
      weightsOf (activePhases dk) [.aqua, .liquid] ++ List.replicate (3 - pu.num) 0) ∧
    (∀ p ∈ activePhases dk, pu.pos p < 3) := by
  unfold activePhases at *
  generalize dk.water = water at *
  generalize dk.oil = oil at *
  generalize dk.gas = gas at *
  cases water <;> cases oil <;> cases gas <;> simp [phaseUsageFromDeck] at h
  all_goals
    subst h
    refine ⟨rfl, by decide, by decide, by decide, ?_, by decide, by decide, by decide⟩
    intro p
    cases p <;> decide

theorem pu_ok (dk : Deck) (h1 : 2 ≤ (activePhases dk).length) (h2 : Phase.liquid ∈ activePhases dk) :
    ∃ pu, phaseUsageFromDeck dk.water dk.oil dk.gas = .ok pu := by
  unfold activePhases at *
  generalize dk.water = water at *
  generalize dk.oil = oil at *
  generalize dk.gas = gas at *
  cases water <;> cases oil <;> cases gas <;> first | exact ⟨_, rfl⟩ | (simp [phaseList] at h1 h2)

theorem phaseWeight_iff (pu : PhaseUsage) (p : Phase) (d w : List Rat) (hp : pu.used p = true → pu.pos p < d.length) :
    phaseWeight pu p d = .ok w ↔ pu.used p = true ∧ w = d.set (pu.pos p) 1 := by
  unfold phaseWeight
  by_cases h : pu.used p = true
  · rw [if_pos h, wr_ok (hp h)]
    constructor
    · intro e; cases e; exact ⟨h, rfl⟩
    · rintro ⟨-, rfl⟩; rfl
  · rw [if_neg h]
    constructor
    · intro e; exact absurd e (by simp)
    · intro e; exact absurd e.1 h

theorem take_weights {ph ps : List Phase} {n k : Nat} (h : ph.length = n) : (weightsOf ph ps ++ List.replicate k 0).take n = weightsOf ph ps := by
  rw [List.take_left' (by unfold weightsOf; simpa using h)]

/-- The weights for one phase. -/
theorem phaseWeights_one {dk : Deck} {pu : PhaseUsage} (h : phaseUsageFromDeck dk.water dk.oil dk.gas = .ok pu) (p : Phase) (w : List Rat) :
    phaseWeights pu true [p] = .ok w ↔ p ∈ activePhases dk ∧ w = weightsOf (activePhases dk) [p] ++ List.replicate (3 - pu.num) 0 := by
  obtain ⟨-, -, -, -, h1, h2, -, h4⟩ := pu_cases h
  unfold phaseWeights
  rw [if_pos rfl, List.foldlM_cons, bind_eq_ok]
  simp only [List.foldlM_nil, pure_eq_ok]
  constructor
  · rintro ⟨a, ha, e⟩
    cases e
    obtain ⟨k1, k2⟩ := (phaseWeight_iff pu p [0, 0, 0] _ (fun hu => h4 p ((h1 p).1 hu))).1 ha
    exact ⟨(h1 p).1 k1, by rw [k2, h2 p ((h1 p).1 k1)]⟩
  · rintro ⟨k1, rfl⟩
    exact ⟨_, (phaseWeight_iff pu p [0, 0, 0] _ (fun hu => h4 p ((h1 p).1 hu))).2 ⟨(h1 p).2 k1, (h2 p k1).symm⟩, rfl⟩

/-- The weights for water and oil. -/
theorem phaseWeights_two {dk : Deck} {pu : PhaseUsage} (h : phaseUsageFromDeck dk.water dk.oil dk.gas = .ok pu) (w : List Rat) :
    phaseWeights pu true [.aqua, .liquid] = .ok w ↔ (Phase.aqua ∈ activePhases dk ∧ Phase.liquid ∈ activePhases dk) ∧
      w = weightsOf (activePhases dk) [.aqua, .liquid] ++ List.replicate (3 - pu.num) 0 := by
  obtain ⟨-, -, -, h0, h1, -, h3, h4⟩ := pu_cases h
  unfold phaseWeights
  rw [if_pos rfl, List.foldlM_cons, bind_eq_ok]
  simp only [List.foldlM_cons, List.foldlM_nil, pure_eq_ok, bind_eq_ok]
  constructor
  · rintro ⟨a, ha, b, hb, e⟩
    cases e
    obtain ⟨k1, k2⟩ := (phaseWeight_iff pu .aqua [0, 0, 0] _ (fun hu => h4 _ ((h1 _).1 hu))).1 ha
    subst k2
    obtain ⟨k3, k4⟩ := (phaseWeight_iff pu .liquid _ _ (fun hu => by simpa using h4 _ ((h1 _).1 hu))).1 hb
    exact ⟨⟨(h1 _).1 k1, h0⟩, by rw [k4, h3 ((h1 _).1 k1)]⟩
  · rintro ⟨⟨k1, k2⟩, rfl⟩
    refine ⟨_, (phaseWeight_iff pu .aqua [0, 0, 0] _ (fun hu => h4 _ ((h1 _).1 hu))).2 ⟨(h1 _).2 k1, rfl⟩, _,
      (phaseWeight_iff pu .liquid _ _ (fun hu => by simpa using h4 _ ((h1 _).1 hu))).2 ⟨(h1 _).2 k2, (h3 k1).symm⟩, rfl⟩

theorem weights_all (dk : Deck) (pu : PhaseUsage) (h : phaseUsageFromDeck dk.water dk.oil dk.gas = .ok pu) :
    ([1, 1, 1] : List Rat).take pu.num = weightsOf (activePhases dk) [.aqua, .liquid, .vapour] := by
  unfold activePhases at *
  generalize dk.water = water at *
  generalize dk.oil = oil at *
  generalize dk.gas = gas at *
  cases water <;> cases oil <;> cases gas <;> simp [phaseUsageFromDeck] at h
  all_goals
    subst h
    decide

/-! ### Limits -/

/-- Replaces the controls of a well. -/
def withLimits (np : Nat) (lims : List Limit) (w : Well) : Well :=
  lims.foldl (fun w L => w.addControl np L.type L.target L.weights) { w with controls := [] }

theorem withLimits_append (np : Nat) (lims : List Limit) (L : Limit) (w : Well) :
    withLimits np (lims ++ [L]) w = (withLimits np lims w).addControl np L.type L.target L.weights := by
  unfold withLimits
  rw [List.foldl_append]
  rfl

theorem withLimits_controls (np : Nat) (w : Well) (lims : List Limit) : (withLimits np lims w).controls = lims.map (fun L => (L.type, L.target)) := by
  induction lims using List.reverseRecOn with
  | nil => rfl
  | append_singleton lims L ih =>
    rw [withLimits_append]
    unfold Well.addControl
    simp [ih]

/-- Two wells agree except for controls. -/
def SameWell (w w' : Well) : Prop := w'.type = w.type ∧ w'.depth = w.depth ∧ w'.cells = w.cells ∧ w'.wi = w.wi ∧ w'.name = w.name

theorem SameWell.rfl' (w : Well) : SameWell w w := ⟨rfl, rfl, rfl, rfl, rfl⟩

theorem SameWell.trans' {a b c : Well} (h : SameWell a b) (k : SameWell b c) : SameWell a c :=
  ⟨k.1.trans h.1, k.2.1.trans h.2.1, k.2.2.1.trans h.2.2.1, k.2.2.2.1.trans h.2.2.2.1, k.2.2.2.2.trans h.2.2.2.2⟩

theorem withLimits_same (np : Nat) (w : Well) (lims : List Limit) : SameWell w (withLimits np lims w) ∧ (withLimits np lims w).comp = w.comp := by
  induction lims using List.reverseRecOn with
  | nil => exact ⟨SameWell.rfl' w, rfl⟩
  | append_singleton lims L ih => rw [withLimits_append]; exact ih

theorem withLimits_slots (np : Nat) (w : Well) (lims : List Limit) : lims.length ≤ (withLimits np lims w).slots.length ∧
    ∀ (k : Nat) L, lims[k]? = some L → ∀ d, L.weights = some d → (withLimits np lims w).slots[k]? = some d := by
  induction lims using List.reverseRecOn with
  | nil => exact ⟨by simp, by simp⟩
  | append_singleton lims L ih =>
    rw [withLimits_append]
    obtain ⟨h1, h2⟩ := ih
    have hl : (withLimits np lims w).controls.length = lims.length := by rw [withLimits_controls]; simp
    unfold Well.addControl
    simp only
    rw [hl]
    by_cases hlt : lims.length < (withLimits np lims w).slots.length
    · rw [if_pos hlt]
      refine ⟨by simp; omega, ?_⟩
      intro k L' hk d hd
      rcases Nat.lt_or_ge k lims.length with hk' | hk'
      · rw [List.getElem?_append_left hk'] at hk
        rw [List.getElem?_set_ne (by omega)]
        exact h2 k L' hk d hd
      · have h0 := (List.getElem?_eq_some_iff.1 hk).1
        simp only [List.length_append, List.length_singleton] at h0
        have he : k = lims.length := by omega
        subst he
        simp only [List.getElem?_concat_length, Option.some.injEq] at hk
        subst hk
        rw [List.getElem?_set_self hlt, hd]
        rfl
    · rw [if_neg hlt]
      have he : (withLimits np lims w).slots.length = lims.length := by omega
      refine ⟨by simp [he], ?_⟩
      intro k L' hk d hd
      rcases Nat.lt_or_ge k lims.length with hk' | hk'
      · rw [List.getElem?_append_left hk'] at hk
        rw [List.getElem?_append_left (by omega)]
        exact h2 k L' hk d hd
      · have h0 := (List.getElem?_eq_some_iff.1 hk).1
        simp only [List.length_append, List.length_singleton] at h0
        have hek : k = lims.length := by omega
        subst hek
        simp only [List.getElem?_concat_length, Option.some.injEq] at hk
        subst hk
        rw [← he, List.getElem?_concat_length, hd]
        rfl

/-- The controls of a well that has been given limits. -/
theorem withLimits_obs (np : Nat) (w w' : Well) (lims : List Limit) (hc : w'.controls = (withLimits np lims w).controls)
    (hs : w'.slots = (withLimits np lims w).slots) : List.Forall₂ IsLimit lims w'.obs.controls := by
  obtain ⟨h1, h2⟩ := withLimits_slots np w lims
  unfold Well.obs
  simp only
  rw [hc, hs, withLimits_controls]
  rw [List.forall₂_iff_get]
  refine ⟨by simp; omega, ?_⟩
  intro k hk hk'
  simp only [List.get_eq_getElem, List.getElem_map, List.getElem_zip]
  refine ⟨rfl, rfl, ?_⟩
  intro d hd
  have := h2 k lims[k] (List.getElem?_eq_getElem hk) d hd
  exact (List.getElem?_eq_some_iff.1 this).2

/-- The position of the control of a mode, or -1. -/
def posOf (lims : List Limit) (m : String) : Int := if m ∈ lims.map Limit.mode then ((lims.map Limit.mode).idxOf m : Int) else -1

theorem posOf_append (lims : List Limit) (L : Limit) (m : String) (h : L.mode ∉ lims.map Limit.mode) :
    posOf (lims ++ [L]) m = if m = L.mode then (lims.length : Int) else posOf lims m := by
  unfold posOf
  rw [List.map_append, List.map_singleton]
  by_cases hm : m = L.mode
  · subst hm
    rw [if_pos (by simp), if_pos rfl, List.idxOf_append_of_notMem h]
    simp
  · rw [if_neg hm]
    by_cases hmem : m ∈ lims.map Limit.mode
    · rw [if_pos (by simp only [List.mem_append]; exact Or.inl hmem), if_pos hmem, List.idxOf_append_of_mem hmem]
    · rw [if_neg (by simp only [List.mem_append, List.mem_singleton, not_or]; exact ⟨hmem, hm⟩), if_neg hmem]

theorem posOf_spec (lims : List Limit) (m : String) (h : m ∈ lims.map Limit.mode) :
    ∃ (k : Nat) (L : Limit), posOf lims m = k ∧ lims[k]? = some L ∧ L.mode = m := by
  unfold posOf
  rw [if_pos h]
  have hlt : (lims.map Limit.mode).idxOf m < (lims.map Limit.mode).length := List.idxOf_lt_length_of_mem h
  have hg := List.getElem_idxOf hlt
  rw [List.length_map] at hlt
  refine ⟨_, lims[(lims.map Limit.mode).idxOf m], rfl, List.getElem?_eq_getElem hlt, ?_⟩
  rwa [List.getElem_map] at hg

/-- The state while the controls of a well are appended: those of `lims` are there. -/
structure ChainInv (np i N : Nat) (slotName : Nat → String) (ws : List Well) (w : Well) (lims : List Limit) (r : List Int × W) : Prop where
  rep : WRep np r.2 (ws.set i (withLimits np lims w))
  len : r.1.length = N
  pos : ∀ k < N, r.1[k]? = some (posOf lims (slotName k))

theorem appendIf_ok {np i N : Nat} {slotName : Nat → String} {ws : List Well} {w : Well} {lims : List Limit} {r : List Int × W}
    (h : ChainInv np i N slotName ws w lims r) (hi : i < ws.length) (J : Junk) (c : Bool) (t : CtrlType) (g : Rat) (d : Option (List Rat)) (slot : Nat)
    (wts : Option (List Rat)) (hd : c = true → (∀ l, d = some l → np ≤ l.length) ∧ d.map (List.take np) = wts) (hs : slot < N)
    (hinj : ∀ k < N, slotName k = slotName slot → k = slot) (hnew : slotName slot ∉ lims.map Limit.mode) :
    ∃ r', appendIf J c t g d i slot r = .ok r' ∧
      ChainInv np i N slotName ws w (lims ++ if c then [⟨slotName slot, t, g, wts⟩] else []) r' := by
  unfold appendIf
  cases c with
  | false => exact ⟨r, rfl, by simpa using h⟩
  | true =>
    obtain ⟨hd1, hd2⟩ := hd rfl
    simp only [if_true]
    obtain ⟨k, hk, hcr, hkl⟩ := h.rep.ctrlAt i _ (List.getElem?_set_self hi)
    obtain ⟨s', e', r'⟩ := h.rep.appendControls J t g d hd1 i (by simpa using hi)
    rw [rd_of_getElem? hk, bind_ok, wr_ok (by rw [h.len]; exact hs), bind_ok, e', bind_ok]
    refine ⟨_, rfl, ?_, by simpa using h.len, ?_⟩
    · rw [modify_set, hd2] at r'
      rw [withLimits_append]
      exact r'
    · intro j hj
      simp only
      rw [posOf_append _ _ _ hnew]
      by_cases hjs : j = slot
      · subst hjs
        rw [List.getElem?_set_self (by rw [h.len]; exact hj), if_pos rfl, hcr.num, withLimits_controls]
        simp
      · rw [List.getElem?_set_ne (Ne.symm hjs), if_neg (fun e => hjs (hinj j hj e))]
        exact h.pos j hj

/-- The number of the current control. -/
def curOf (lims : List Limit) (mode openShut : String) : Int := if openShut = "SHUT" then -posOf lims mode - 1 else posOf lims mode

theorem posOf_lt (lims : List Limit) (m : String) : posOf lims m < lims.length ∧ -1 ≤ posOf lims m := by
  by_cases h : m ∈ lims.map Limit.mode
  · obtain ⟨k, L, e, hk, -⟩ := posOf_spec lims m h
    have := (List.getElem?_eq_some_iff.1 hk).1
    rw [e]
    omega
  · unfold posOf
    rw [if_neg h]
    omega

theorem posOf_neg (lims : List Limit) (m : String) : posOf lims m = -1 ↔ m ∉ lims.map Limit.mode := by
  constructor
  · intro e hm
    obtain ⟨k, L, e', -, -⟩ := posOf_spec lims m hm
    omega
  · intro h
    unfold posOf
    rw [if_neg h]

theorem chooseCurrent_ok {np i N : Nat} {slotName : Nat → String} {ws : List Well} {w : Well} {lims : List Limit} {r : List Int × W}
    (h : ChainInv np i N slotName ws w lims r) (hi : i < ws.length) (m grup : Nat) (hm : m < N) (hg : ∀ k < N, k = grup ↔ slotName k = "GRUP")
    (openShut : String) (hmode : ModeOk lims (slotName m) openShut) :
    ∃ s', chooseCurrent r.1 m grup openShut i r.2 = .ok s' ∧
      WRep np s' (ws.set i { withLimits np lims w with current := curOf lims (slotName m) openShut }) := by
  unfold chooseCurrent
  rw [rd_of_getElem? (h.pos m hm), bind_ok]
  have hcond : ¬ (posOf lims (slotName m) = -1 ∧ m ≠ grup) := by
    rintro ⟨e, hne⟩
    rw [posOf_neg] at e
    rcases hmode with hmem | ⟨hgr, -⟩
    · exact e hmem
    · exact hne ((hg m hm).2 hgr)
  rw [if_neg hcond]
  obtain ⟨b1, b2⟩ := posOf_lt lims (slotName m)
  have hcur : curOf lims (slotName m) openShut < (withLimits np lims w).controls.length := by
    rw [withLimits_controls, List.length_map]
    unfold curOf
    split
    · rename_i hs
      by_cases hneg : posOf lims (slotName m) = -1
      · rw [posOf_neg] at hneg
        rcases hmode with hmem | ⟨-, hne⟩
        · exact absurd hmem hneg
        · have : 0 < lims.length := List.length_pos_iff.2 (hne hs)
          rw [(posOf_neg _ _).2 hneg]
          omega
      · omega
    · exact b1
  obtain ⟨s', e', r'⟩ := h.rep.setCurrent i _ (List.getElem?_set_self hi) _ hcur
  refine ⟨s', ?_, by rw [modify_set] at r'; exact r'⟩
  unfold curOf at e'
  exact e'

theorem chooseCurrent_mode {np i N : Nat} {slotName : Nat → String} {ws : List Well} {w : Well} {lims : List Limit} {r : List Int × W}
    (h : ChainInv np i N slotName ws w lims r) (hi : i < ws.length) (m grup : Nat) (hm : m < N) (hg : ∀ k < N, k = grup ↔ slotName k = "GRUP")
    (openShut : String) (s' : W) (he : chooseCurrent r.1 m grup openShut i r.2 = .ok s') : ModeOk lims (slotName m) openShut := by
  unfold chooseCurrent at he
  rw [rd_of_getElem? (h.pos m hm), bind_ok] at he
  by_cases hmem : slotName m ∈ lims.map Limit.mode
  · exact Or.inl hmem
  right
  have hp := (posOf_neg lims (slotName m)).2 hmem
  split at he
  · exact absurd he (by simp)
  · rename_i hc
    have hgr : m = grup := by
      by_contra hne
      exact hc ⟨hp, hne⟩
    refine ⟨(hg m hm).1 hgr, ?_⟩
    intro hs hnil
    rw [if_pos hs, hp] at he
    unfold setCurrentControl at he
    obtain ⟨c, hc', hcr, -⟩ := h.rep.ctrlAt i _ (List.getElem?_set_self hi)
    rw [check_ok (by rw [h.rep.nw]; simpa using hi), bind_ok, rdI_natCast, rd_of_getElem? hc', bind_ok, bind_eq_ok] at he
    obtain ⟨_, hch, -⟩ := he
    rw [check_eq_ok] at hch
    rw [hcr.num, withLimits_controls, hnil] at hch
    simp at hch

/-! ### Control modes -/

/-- The names of the injection control modes. -/
def injSlot (k : Nat) : String := ["RATE", "RESV", "BHP", "THP", "GRUP"].getD k ""

/-- The names of the production control modes. -/
def prodSlot (k : Nat) : String := ["ORAT", "WRAT", "GRAT", "LRAT", "CRAT", "RESV", "BHP", "THP", "GRUP"].getD k ""

theorem injMode_iff (m : String) (k : Nat) : injMode m = .ok k ↔ k < 5 ∧ injSlot k = m := by
  constructor
  · intro h
    unfold injMode at h
    split_ifs at h <;> cases h <;> (subst m; decide)
  · rintro ⟨hk, rfl⟩
    interval_cases k <;> decide +kernel

theorem prodMode_iff (m : String) (k : Nat) : prodMode m = .ok k ↔ k < 9 ∧ prodSlot k = m := by
  constructor
  · intro h
    unfold prodMode at h
    split_ifs at h <;> cases h <;> (subst m; decide)
  · rintro ⟨hk, rfl⟩
    interval_cases k <;> decide +kernel

theorem injSlot_inj : ∀ j < 5, ∀ k < 5, injSlot k = injSlot j → k = j := by decide +kernel

theorem prodSlot_inj : ∀ j < 9, ∀ k < 9, prodSlot k = prodSlot j → k = j := by decide +kernel

theorem injSlot_grup : ∀ k < 5, k = 4 ↔ injSlot k = "GRUP" := by decide +kernel

theorem prodSlot_grup : ∀ k < 9, k = 8 ↔ prodSlot k = "GRUP" := by decide +kernel

theorem mem_single {α : Type} (c : Prop) [Decidable c] (x y : α) (h : x ∈ (if c then [y] else [])) : x = y := by
  split at h
  · simpa using h
  · simp at h

theorem injLimits_modes (ph : List Phase) (l : WconinjeLine) (m : String) (h : m ∈ (injLimits ph l).map Limit.mode) : ∃ k < 5, injSlot k = m := by
  obtain ⟨L, hL, rfl⟩ := List.mem_map.1 h
  unfold injLimits at hL
  simp only [List.mem_append] at hL
  rcases hL with (hL | hL) | hL
  · exact ⟨0, by omega, by rw [mem_single _ _ _ hL]; rfl⟩
  · exact ⟨1, by omega, by rw [mem_single _ _ _ hL]; rfl⟩
  · exact ⟨2, by omega, by rw [mem_single _ _ _ hL]; rfl⟩

theorem prodLimits_modes (ph : List Phase) (l : WconprodLine) (m : String) (h : m ∈ (prodLimits ph l).map Limit.mode) : ∃ k < 9, prodSlot k = m := by
  obtain ⟨L, hL, rfl⟩ := List.mem_map.1 h
  unfold prodLimits at hL
  simp only [List.mem_append] at hL
  rcases hL with ((((hL | hL) | hL) | hL) | hL) | hL
  · exact ⟨0, by omega, by rw [mem_single _ _ _ hL]; rfl⟩
  · exact ⟨1, by omega, by rw [mem_single _ _ _ hL]; rfl⟩
  · exact ⟨2, by omega, by rw [mem_single _ _ _ hL]; rfl⟩
  · exact ⟨3, by omega, by rw [mem_single _ _ _ hL]; rfl⟩
  · exact ⟨5, by omega, by rw [mem_single _ _ _ hL]; rfl⟩
  · exact ⟨6, by omega, by rw [mem_single _ _ _ hL]; rfl⟩

theorem modes_single (c : Prop) [Decidable c] (L : Limit) (m : String) (h : m ∈ (if c then [L] else []).map Limit.mode) : m = L.mode := by
  split at h
  · simpa using h
  · simp at h

theorem _root_.Opm.Wells.WRep.typeAt {np : Nat} {s : W} {ws : List Well} (h : WRep np s ws) {i : Nat} {w : Well} (hw : ws[i]? = some w) :
    rd s.type i = .ok w.type := by
  have := h.type_at hw
  rwa [rdI_natCast] at this

/-- Starting to append controls. -/
theorem chain_start {np i N : Nat} {slotName : Nat → String} {s : W} {ws : List Well} {w : Well} (h : WRep np s ws) (hw : ws[i]? = some w) :
    ∃ s', clearWellControls i s = .ok s' ∧ ChainInv np i N slotName ws w [] (List.replicate N (-1), s') := by
  obtain ⟨s', e, r⟩ := h.clearControls i (List.getElem?_eq_some_iff.1 hw).1
  refine ⟨s', e, ?_, by simp, ?_⟩
  · rw [modify_of_get hw] at r
    exact r
  · intro k hk
    simp [posOf, hk]

/-! ### Injectors -/

/-- The component fractions an injector gets. -/
def fractionsOf (ph : List Phase) (l : WconinjeLine) : List Rat := ph.map (fun p => if injectedPhase l.injectorType = some p then 1 else 0)

theorem injFractions_iff {dk : Deck} {pu : PhaseUsage} (h : phaseUsageFromDeck dk.water dk.oil dk.gas = .ok pu) (l : WconinjeLine) (cf : List Rat) :
    injFractions pu l.injectorType = .ok cf ↔
      (∀ p, injectedPhase l.injectorType = some p → p ∈ activePhases dk) ∧ cf = fractionsOf (activePhases dk) l ++ List.replicate (3 - pu.num) 0 := by
  obtain ⟨k1, k2, k3, -, h1, h2, -, h4⟩ := pu_cases h
  have hone : ∀ p, injectedPhase l.injectorType = some p → fractionsOf (activePhases dk) l = weightsOf (activePhases dk) [p] := by
    intro p hp
    unfold fractionsOf weightsOf
    rw [hp]
    refine List.map_congr_left (fun q _ => ?_)
    simp [eq_comm]
  have hcase : ∀ p, injectedPhase l.injectorType = some p → (phaseWeight pu p [0, 0, 0] = .ok cf ↔
      (∀ p, injectedPhase l.injectorType = some p → p ∈ activePhases dk) ∧ cf = fractionsOf (activePhases dk) l ++ List.replicate (3 - pu.num) 0) := by
    intro p hp
    rw [phaseWeight_iff pu p [0, 0, 0] cf (fun hu => h4 p ((h1 p).1 hu)), hone p hp, h1]
    constructor
    · rintro ⟨hu, rfl⟩
      exact ⟨fun q hq => by rw [hp] at hq; cases hq; exact hu, h2 p hu⟩
    · rintro ⟨hq, rfl⟩
      exact ⟨hq p hp, (h2 p (hq p hp)).symm⟩
  unfold injFractions
  split
  · rename_i e; exact hcase .aqua (by unfold injectedPhase; rw [e]; rfl)
  · rename_i e; exact hcase .liquid (by unfold injectedPhase; rw [e]; rfl)
  · rename_i e; exact hcase .vapour (by unfold injectedPhase; rw [e]; rfl)
  · rename_i e1 e2 e3
    have hnone : injectedPhase l.injectorType = none := by
      unfold injectedPhase
      split
      · exact absurd (by assumption) e1
      · exact absurd (by assumption) e2
      · exact absurd (by assumption) e3
      · rfl
    have hz : fractionsOf (activePhases dk) l ++ List.replicate (3 - pu.num) 0 = [0, 0, 0] := by
      unfold fractionsOf
      rw [hnone]
      have : (activePhases dk).map (fun p => if (none : Option Phase) = some p then (1 : Rat) else 0) = List.replicate (activePhases dk).length 0 := by
        rw [List.eq_replicate_iff]
        simp
      rw [this, ← k1, List.replicate_append_replicate]
      have : pu.num + (3 - pu.num) = 3 := by omega
      rw [this]
      rfl
    rw [hz, hnone]
    simp [eq_comm]

/-- A record of `WCONINJE` applied to a well. -/
def injectedWell (ph : List Phase) (l : WconinjeLine) (w : Well) : Well :=
  { withLimits ph.length (injLimits ph l) w with current := curOf (injLimits ph l) l.controlMode l.openShut, comp := fractionsOf ph l }

theorem if_singleton_decide (c : Prop) [Decidable c] (L : Limit) : (if decide c = true then [L] else []) = if c then [L] else [] := by
  by_cases h : c <;> simp [h]

theorem injChain {dk : Deck} {pu : PhaseUsage} (hpu : phaseUsageFromDeck dk.water dk.oil dk.gas = .ok pu) (J : Junk) (l : WconinjeLine)
    {s : W} {ws : List Well} {w : Well} {i : Nat} (h : WRep pu.num s ws) (hw : ws[i]? = some w) (d : WellData) (ht : d.type = some w.type)
    (hinj : w.type = .injector) :
    ∃ r, ChainInv pu.num i 5 injSlot ws w (injLimits (activePhases dk) l) r ∧
      injectWell J pu l d i s = (if l.thp > 0 then .error .thrown else do
        let m ← injMode l.controlMode
        let s ← chooseCurrent r.1 m 4 l.openShut i r.2
        let cf ← injFractions pu l.injectorType
        setFractions pu.num i cf s) := by
  obtain ⟨-, k2, -, -, -, -, -, -⟩ := pu_cases hpu
  have hi := (List.getElem?_eq_some_iff.1 hw).1
  have hall := weights_all dk pu hpu
  have hd3 : ∀ l : List Rat, some [1, 1, 1] = some l → pu.num ≤ l.length := by
    intro l hl
    cases hl
    exact k2
  obtain ⟨s0, e0, i0⟩ := chain_start (N := 5) (slotName := injSlot) h hw
  obtain ⟨r1, e1, i1⟩ := appendIf_ok i0 hi J (decide (l.surfaceMax ≥ 0)) .surfaceRate l.surfaceMax (some [1, 1, 1]) 0
    (some (weightsOf (activePhases dk) [.aqua, .liquid, .vapour])) (fun _ => ⟨hd3, by rw [Option.map_some, hall]⟩) (by omega) (injSlot_inj 0 (by omega)) (by simp)
  rw [if_singleton_decide] at i1
  obtain ⟨r2, e2, i2⟩ := appendIf_ok i1 hi J (decide (l.reservoirMax ≥ 0)) .reservoirRate l.reservoirMax (some [1, 1, 1]) 1
    (some (weightsOf (activePhases dk) [.aqua, .liquid, .vapour])) (fun _ => ⟨hd3, by rw [Option.map_some, hall]⟩) (by omega) (injSlot_inj 1 (by omega)) (by
      simp only [List.nil_append]
      intro hm
      exact absurd (modes_single _ _ _ hm) (by dsimp only; decide +kernel))
  rw [if_singleton_decide] at i2
  obtain ⟨r3, e3, i3⟩ := appendIf_ok i2 hi J (decide (l.bhp > 0)) .bhp l.bhp none 2 none (fun _ => ⟨by simp, rfl⟩) (by omega) (injSlot_inj 2 (by omega)) (by
      simp only [List.nil_append, List.map_append, List.mem_append]
      rintro (hm | hm)
      · exact absurd (modes_single _ _ _ hm) (by dsimp only; decide +kernel)
      · exact absurd (modes_single _ _ _ hm) (by dsimp only; decide +kernel))
  rw [if_singleton_decide] at i3
  refine ⟨r3, i3, ?_⟩
  unfold injectWell
  rw [h.typeAt hw, bind_ok, check_ok (by rw [ht]; simp), bind_ok, if_neg (by rw [ht, hinj]; simp), e0, bind_ok]
  have er : ([-1, -1, -1, -1, -1] : List Int) = List.replicate 5 (-1) := rfl
  rw [er, e1, bind_ok, e2, bind_ok, e3, bind_ok]

theorem injectWell_ok {dk : Deck} {pu : PhaseUsage} (hpu : phaseUsageFromDeck dk.water dk.oil dk.gas = .ok pu) (J : Junk) (l : WconinjeLine)
    {s : W} {ws : List Well} {w : Well} {i : Nat} (h : WRep pu.num s ws) (hw : ws[i]? = some w) (d : WellData) (ht : d.type = some w.type)
    (hinj : w.type = .injector) (hl : InjOk (activePhases dk) l) :
    ∃ s', injectWell J pu l d i s = .ok s' ∧ WRep pu.num s' (ws.set i (injectedWell (activePhases dk) l w)) := by
  obtain ⟨k1, k2, -, -, -, -, -, -⟩ := pu_cases hpu
  have hi := (List.getElem?_eq_some_iff.1 hw).1
  obtain ⟨r, ir, e⟩ := injChain hpu J l h hw d ht hinj
  rw [e, if_neg (by have := hl.thp; linarith)]
  obtain ⟨m, hm, hmn⟩ : ∃ k < 5, injSlot k = l.controlMode := by
    rcases hl.mode with hmem | ⟨hg, -⟩
    · exact injLimits_modes _ _ _ hmem
    · exact ⟨4, by omega, by rw [hg]; rfl⟩
  rw [(injMode_iff l.controlMode m).2 ⟨hm, hmn⟩, bind_ok]
  obtain ⟨s1, e1, r1⟩ := chooseCurrent_ok ir hi m 4 hm injSlot_grup l.openShut (by rw [hmn]; exact hl.mode)
  rw [e1, bind_ok, (injFractions_iff hpu l _).2 ⟨hl.phase, rfl⟩, bind_ok]
  obtain ⟨s2, e2, r2⟩ := r1.setComp i _ (List.getElem?_set_self hi) (fractionsOf (activePhases dk) l ++ List.replicate (3 - pu.num) 0) (by
    simp [fractionsOf, ← k1])
  refine ⟨s2, e2, ?_⟩
  rw [set_set_same, List.take_left' (by simp [fractionsOf, ← k1]), hmn, k1] at r2
  unfold injectedWell
  rw [k1]
  exact r2

theorem injectWell_cond {dk : Deck} {pu : PhaseUsage} (hpu : phaseUsageFromDeck dk.water dk.oil dk.gas = .ok pu) (J : Junk) (l : WconinjeLine)
    {s : W} {ws : List Well} {w : Well} {i : Nat} (h : WRep pu.num s ws) (hw : ws[i]? = some w) (d : WellData) (s' : W)
    (he : injectWell J pu l d i s = .ok s') : d.type = some w.type ∧ w.type = .injector ∧ InjOk (activePhases dk) l := by
  have hi := (List.getElem?_eq_some_iff.1 hw).1
  have ht : d.type = some w.type ∧ w.type = .injector := by
    unfold injectWell at he
    rw [h.typeAt hw, bind_ok, bind_eq_ok] at he
    obtain ⟨_, hc, he⟩ := he
    rw [check_eq_ok, decide_eq_true_iff] at hc
    refine ⟨hc, ?_⟩
    split at he
    · exact absurd he (by simp)
    · rename_i hne
      rw [not_not, hc] at hne
      exact Option.some.inj hne
  obtain ⟨r, ir, e⟩ := injChain hpu J l h hw d ht.1 ht.2
  refine ⟨ht.1, ht.2, ?_⟩
  rw [e] at he
  split at he
  · exact absurd he (by simp)
  · rename_i hthp
    rw [bind_eq_ok] at he
    obtain ⟨m, hm, he⟩ := he
    rw [bind_eq_ok] at he
    obtain ⟨s1, hs1, he⟩ := he
    rw [bind_eq_ok] at he
    obtain ⟨cf, hcf, -⟩ := he
    obtain ⟨hm5, hmn⟩ := (injMode_iff _ _).1 hm
    have hmode := chooseCurrent_mode ir hi m 4 hm5 injSlot_grup l.openShut s1 hs1
    rw [hmn] at hmode
    exact ⟨by linarith, hmode, ((injFractions_iff hpu l cf).1 hcf).1⟩

/-! ### Producers -/

/-- A record of `WCONPROD` applied to a well. -/
def producedWell (ph : List Phase) (l : WconprodLine) (w : Well) : Well :=
  { withLimits ph.length (prodLimits ph l) w with current := curOf (prodLimits ph l) l.controlMode l.openShut }

/-- The phases of the rate limits are in use. -/
def PhasesOk (ph : List Phase) (l : WconprodLine) : Prop :=
  (0 ≤ l.oilMax → Phase.liquid ∈ ph) ∧ (0 ≤ l.waterMax → Phase.aqua ∈ ph) ∧ (0 ≤ l.gasMax → Phase.vapour ∈ ph) ∧
  (0 ≤ l.liquidMax → Phase.aqua ∈ ph ∧ Phase.liquid ∈ ph)

theorem weightsIf_one {dk : Deck} {pu : PhaseUsage} (h : phaseUsageFromDeck dk.water dk.oil dk.gas = .ok pu) (c : Prop) [Decidable c] (p : Phase)
    (hp : c → p ∈ activePhases dk) : ∃ w, phaseWeights pu (decide c) [p] = .ok w ∧
      (decide c = true → (∀ l, some w = some l → pu.num ≤ l.length) ∧ (some w).map (List.take pu.num) = some (weightsOf (activePhases dk) [p])) := by
  obtain ⟨k1, k2, -, -, -, -, -, -⟩ := pu_cases h
  by_cases hc : c
  · refine ⟨_, by rw [decide_eq_true hc]; exact (phaseWeights_one h p _).2 ⟨hp hc, rfl⟩, fun _ => ⟨?_, ?_⟩⟩
    · intro l hl
      cases hl
      simp [weightsOf, ← k1]
    · rw [Option.map_some, take_weights k1.symm]
  · exact ⟨[0, 0, 0], by rw [decide_eq_false hc]; rfl, by simp [hc]⟩

theorem weightsIf_two {dk : Deck} {pu : PhaseUsage} (h : phaseUsageFromDeck dk.water dk.oil dk.gas = .ok pu) (c : Prop) [Decidable c]
    (hp : c → Phase.aqua ∈ activePhases dk ∧ Phase.liquid ∈ activePhases dk) : ∃ w, phaseWeights pu (decide c) [.aqua, .liquid] = .ok w ∧
      (decide c = true → (∀ l, some w = some l → pu.num ≤ l.length) ∧ (some w).map (List.take pu.num) = some (weightsOf (activePhases dk) [.aqua, .liquid])) := by
  obtain ⟨k1, k2, -, -, -, -, -, -⟩ := pu_cases h
  by_cases hc : c
  · refine ⟨_, by rw [decide_eq_true hc]; exact (phaseWeights_two h _).2 ⟨hp hc, rfl⟩, fun _ => ⟨?_, ?_⟩⟩
    · intro l hl
      cases hl
      simp [weightsOf, ← k1]
    · rw [Option.map_some, take_weights k1.symm]
  · exact ⟨[0, 0, 0], by rw [decide_eq_false hc]; rfl, by simp [hc]⟩

theorem prodChain {dk : Deck} {pu : PhaseUsage} (hpu : phaseUsageFromDeck dk.water dk.oil dk.gas = .ok pu) (J : Junk) (l : WconprodLine)
    {s : W} {ws : List Well} {w : Well} {i : Nat} (h : WRep pu.num s ws) (hw : ws[i]? = some w) (d : WellData) (ht : d.type = some w.type)
    (hprod : w.type = .producer) (hph : PhasesOk (activePhases dk) l) :
    ∃ r, ChainInv pu.num i 9 prodSlot ws w (prodLimits (activePhases dk) l) r ∧
      produceWell J pu l d i s = (if l.thp > 0 then .error .thrown else do
        let m ← prodMode l.controlMode
        chooseCurrent r.1 m 8 l.openShut i r.2) := by
  obtain ⟨-, k2, -, -, -, -, -, -⟩ := pu_cases hpu
  obtain ⟨p1, p2, p3, p4⟩ := hph
  have hi := (List.getElem?_eq_some_iff.1 hw).1
  have hall := weights_all dk pu hpu
  have hd3 : ∀ l : List Rat, some [1, 1, 1] = some l → pu.num ≤ l.length := by
    intro l hl
    cases hl
    exact k2
  obtain ⟨w1, f1, g1⟩ := weightsIf_one hpu (l.oilMax ≥ 0) .liquid p1
  obtain ⟨w2, f2, g2⟩ := weightsIf_one hpu (l.waterMax ≥ 0) .aqua p2
  obtain ⟨w3, f3, g3⟩ := weightsIf_one hpu (l.gasMax ≥ 0) .vapour p3
  obtain ⟨w4, f4, g4⟩ := weightsIf_two hpu (l.liquidMax ≥ 0) p4
  obtain ⟨s0, e0, i0⟩ := chain_start (N := 9) (slotName := prodSlot) h hw
  obtain ⟨r1, e1, i1⟩ := appendIf_ok i0 hi J (decide (l.oilMax ≥ 0)) .surfaceRate (-l.oilMax) (some w1) 0 _ g1 (by omega) (prodSlot_inj 0 (by omega)) (by simp)
  rw [if_singleton_decide] at i1
  obtain ⟨r2, e2, i2⟩ := appendIf_ok i1 hi J (decide (l.waterMax ≥ 0)) .surfaceRate (-l.waterMax) (some w2) 1 _ g2 (by omega) (prodSlot_inj 1 (by omega)) (by
      simp only [List.nil_append]
      intro hm
      exact absurd (modes_single _ _ _ hm) (by dsimp only; decide +kernel))
  rw [if_singleton_decide] at i2
  obtain ⟨r3, e3, i3⟩ := appendIf_ok i2 hi J (decide (l.gasMax ≥ 0)) .surfaceRate (-l.gasMax) (some w3) 2 _ g3 (by omega) (prodSlot_inj 2 (by omega)) (by
      simp only [List.nil_append, List.map_append, List.mem_append]
      rintro (hm | hm)
      all_goals exact absurd (modes_single _ _ _ hm) (by dsimp only; decide +kernel))
  rw [if_singleton_decide] at i3
  obtain ⟨r4, e4, i4⟩ := appendIf_ok i3 hi J (decide (l.liquidMax ≥ 0)) .surfaceRate (-l.liquidMax) (some w4) 3 _ g4 (by omega) (prodSlot_inj 3 (by omega)) (by
      simp only [List.nil_append, List.map_append, List.mem_append]
      rintro ((hm | hm) | hm)
      all_goals exact absurd (modes_single _ _ _ hm) (by dsimp only; decide +kernel))
  rw [if_singleton_decide] at i4
  obtain ⟨r5, e5, i5⟩ := appendIf_ok i4 hi J (decide (l.reservoirMax ≥ 0)) .reservoirRate (-l.reservoirMax) (some [1, 1, 1]) 5
    (some (weightsOf (activePhases dk) [.aqua, .liquid, .vapour])) (fun _ => ⟨hd3, by rw [Option.map_some, hall]⟩) (by omega) (prodSlot_inj 5 (by omega)) (by
      simp only [List.nil_append, List.map_append, List.mem_append]
      rintro (((hm | hm) | hm) | hm)
      all_goals exact absurd (modes_single _ _ _ hm) (by dsimp only; decide +kernel))
  rw [if_singleton_decide] at i5
  obtain ⟨r6, e6, i6⟩ := appendIf_ok i5 hi J (decide (l.bhp > 0)) .bhp l.bhp none 6 none (fun _ => ⟨by simp, rfl⟩) (by omega) (prodSlot_inj 6 (by omega)) (by
      simp only [List.nil_append, List.map_append, List.mem_append]
      rintro ((((hm | hm) | hm) | hm) | hm)
      all_goals exact absurd (modes_single _ _ _ hm) (by dsimp only; decide +kernel))
  rw [if_singleton_decide] at i6
  refine ⟨r6, i6, ?_⟩
  unfold produceWell
  rw [h.typeAt hw, bind_ok, check_ok (by rw [ht]; simp), bind_ok, if_neg (by rw [ht, hprod]; simp), e0, bind_ok]
  have er : ([-1, -1, -1, -1, -1, -1, -1, -1, -1] : List Int) = List.replicate 9 (-1) := rfl
  rw [er, f1, bind_ok, e1, bind_ok, f2, bind_ok, e2, bind_ok, f3, bind_ok, e3, bind_ok, f4, bind_ok, e4, bind_ok, e5, bind_ok, e6, bind_ok]

theorem produceWell_ok {dk : Deck} {pu : PhaseUsage} (hpu : phaseUsageFromDeck dk.water dk.oil dk.gas = .ok pu) (J : Junk) (l : WconprodLine)
    {s : W} {ws : List Well} {w : Well} {i : Nat} (h : WRep pu.num s ws) (hw : ws[i]? = some w) (d : WellData) (ht : d.type = some w.type)
    (hprod : w.type = .producer) (hl : ProdOk (activePhases dk) l) :
    ∃ s', produceWell J pu l d i s = .ok s' ∧ WRep pu.num s' (ws.set i (producedWell (activePhases dk) l w)) := by
  obtain ⟨k1, -, -, -, -, -, -, -⟩ := pu_cases hpu
  have hi := (List.getElem?_eq_some_iff.1 hw).1
  obtain ⟨r, ir, e⟩ := prodChain hpu J l h hw d ht hprod ⟨hl.oil, hl.water, hl.gas, hl.liquid⟩
  rw [e, if_neg (by have := hl.thp; linarith)]
  obtain ⟨m, hm, hmn⟩ : ∃ k < 9, prodSlot k = l.controlMode := by
    rcases hl.mode with hmem | ⟨hg, -⟩
    · exact prodLimits_modes _ _ _ hmem
    · exact ⟨8, by omega, by rw [hg]; rfl⟩
  rw [(prodMode_iff l.controlMode m).2 ⟨hm, hmn⟩, bind_ok]
  obtain ⟨s1, e1, r1⟩ := chooseCurrent_ok ir hi m 8 hm prodSlot_grup l.openShut (by rw [hmn]; exact hl.mode)
  refine ⟨s1, e1, ?_⟩
  unfold producedWell
  rw [hmn, k1] at r1
  rw [k1]
  exact r1

theorem phaseWeights_used {dk : Deck} {pu : PhaseUsage} (h : phaseUsageFromDeck dk.water dk.oil dk.gas = .ok pu) (c : Prop) [Decidable c] (p : Phase)
    (w : List Rat) (he : phaseWeights pu (decide c) [p] = .ok w) (hc : c) : p ∈ activePhases dk := by
  rw [decide_eq_true hc] at he
  exact ((phaseWeights_one h p w).1 he).1

theorem produceWell_cond {dk : Deck} {pu : PhaseUsage} (hpu : phaseUsageFromDeck dk.water dk.oil dk.gas = .ok pu) (J : Junk) (l : WconprodLine)
    {s : W} {ws : List Well} {w : Well} {i : Nat} (h : WRep pu.num s ws) (hw : ws[i]? = some w) (d : WellData) (s' : W)
    (he : produceWell J pu l d i s = .ok s') : d.type = some w.type ∧ w.type = .producer ∧ ProdOk (activePhases dk) l := by
  have hi := (List.getElem?_eq_some_iff.1 hw).1
  have ht : (d.type = some w.type ∧ w.type = .producer) ∧ PhasesOk (activePhases dk) l := by
    have he' := he
    unfold produceWell at he'
    rw [h.typeAt hw, bind_ok, bind_eq_ok] at he'
    obtain ⟨_, hc, he'⟩ := he'
    rw [check_eq_ok, decide_eq_true_iff] at hc
    split at he'
    · exact absurd he' (by simp)
    · rename_i hne
      rw [not_not, hc] at hne
      simp only [bind_eq_ok] at he'
      obtain ⟨s0, -, w1, f1, r1, -, w2, f2, r2, -, w3, f3, r3, -, w4, f4, -⟩ := he'
      refine ⟨⟨hc, Option.some.inj hne⟩, phaseWeights_used hpu _ _ _ f1, phaseWeights_used hpu _ _ _ f2, phaseWeights_used hpu _ _ _ f3, ?_⟩
      intro hliq
      rw [decide_eq_true hliq] at f4
      exact ((phaseWeights_two hpu w4).1 f4).1
  obtain ⟨ht, hph⟩ := ht
  obtain ⟨r, ir, e⟩ := prodChain hpu J l h hw d ht.1 ht.2 hph
  refine ⟨ht.1, ht.2, ?_⟩
  rw [e] at he
  split at he
  · exact absurd he (by simp)
  · rename_i hthp
    rw [bind_eq_ok] at he
    obtain ⟨m, hm, he⟩ := he
    obtain ⟨hm9, hmn⟩ := (prodMode_iff _ _).1 hm
    have hmode := chooseCurrent_mode ir hi m 8 hm9 prodSlot_grup l.openShut s' he
    rw [hmn] at hmode
    exact ⟨by linarith, hmode, hph.1, hph.2.1, hph.2.2.1, hph.2.2.2⟩

end Opm.Manager
