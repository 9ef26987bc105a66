import Verif.Proofs.LiveGas
/-!
# Live gas (C88)

`GasTable t` describes usable records of PVTG; properties are those returned by the interface for one point.
-/

namespace Opm.Pvt
open Opm Opm.Interp Opm.Rock

/-- The object can be built. -/
theorem live_gas_new {t : OilRecords} (h : GasTable t) : ∃ T, liveGas [t.map encode] = .ok T := ⟨_, liveGas_ok h.ne⟩

theorem gas_T {t : OilRecords} (h : GasTable t) {T : Live} (c : liveGas [t.map encode] = .ok T) : T = gasLive t := by
  rw [liveGas_ok h.ne] at c
  exact (Except.ok.inj c).symm

theorem gas_oneB (T : Live) {cfg : Config} {z : List Rat} {zo zg : Rat} (hz : Volumes cfg z zo zg) (h0 : zg ≠ 0) (p : Rat) : oneB (.gas T) cfg z p = T.gas cfg p (volOf cfg z 0) 1 false := by
  rw [oneB_eq]
  show T.gasB cfg p (volOf cfg z 0) = _
  unfold Live.gasB
  rw [volume_gas hz, bind_ok, if_neg h0]

theorem gas_oneMu (T : Live) (cfg : Config) (z : List Rat) (p : Rat) : oneMu (.gas T) cfg z p = T.gas cfg p (volOf cfg z 0) 2 false := by
  rw [oneMu_eq]
  rfl

/-- Undersaturated gas between two records, whichever section the search finds. -/
theorem gas_mean {t : OilRecords} (h : GasTable t) {cfg : Config} {z : List Rat} {zo zg : Rat} (hz : Volumes cfg z zo zg) (h0 : zg ≠ 0) {p s : Rat} (hs : satRv t p = .ok s) (hle : zo / zg ≤ s)
    {i : Nat} {r r' : Rat × List (Rat × Rat × Rat)} (hr : t[i]? = some r) (hr' : t[i + 1]? = some r') (h1 : r.1 ≤ p) (h2 : p ≤ r'.1) {item : Nat} (hi : item = 1 ∨ item = 2) {v v' : Rat}
    (hv : recordItem item r (zo / zg) = .ok v) (hv' : recordItem item r' (zo / zg) = .ok v') :
    (gasLive t).gas cfg p (volOf cfg z 0) item false = .ok (v + (p - r.1) / (r'.1 - r.1) * (v' - v)) := by
  obtain ⟨k, q, q', ek, hq, hq', hlt, l1, l2⟩ := section_ok h p
  have inc : ∀ {a b : Nat} {x y : Rat × List (Rat × Rat × Rat)}, t[a]? = some x → t[b]? = some y → a < b → x.1 < y.1 := by
    intro a b x y hx hy hab
    obtain ⟨q1, rfl⟩ := List.getElem?_eq_some_iff.1 hx
    obtain ⟨q2, rfl⟩ := List.getElem?_eq_some_iff.1 hy
    have := List.pairwise_iff_getElem.1 h.press a b (by simpa using q1) (by simpa using q2) hab
    simpa using this
  have hrr := inc hr hr' (by omega)
  have hl := (List.getElem?_eq_some_iff.1 hr').1
  have hlk := (List.getElem?_eq_some_iff.1 hq').1
  rw [gas_unsat hz h0 hs hle ek, if_neg (by simp)]
  rcases Nat.lt_trichotomy k i with hk | hk | hk
  · -- the search stops before: `p` is the first pressure of section `i`
    have hp : p ≤ q'.1 := l2 (by omega)
    have hki : k + 1 = i := by
      by_contra hn
      have := inc hq' hr (by omega)
      linarith
    subst hki
    rw [hr] at hq'
    cases hq'
    have hpe : p = r.1 := le_antisymm hp h1
    obtain ⟨w, hw⟩ := record_total h hi (List.mem_of_getElem? hq) (zo / zg)
    rw [gas_between h hq hr hlt (by rw [hpe]; exact hlt.le) hp hi hw hv, hpe, sub_self, zero_div, zero_mul, div_self (by linarith)]
    congr 1
    ring
  · subst hk
    rw [hr] at hq
    cases hq
    rw [hr'] at hq'
    cases hq'
    exact gas_between h hr hr' hlt h1 h2 hi hv hv'
  · have hp : q.1 ≤ p := l1 (by omega)
    have hki : k = i + 1 := by
      by_contra hn
      have := inc hr' hq (by omega)
      linarith
    subst hki
    rw [hr'] at hq
    cases hq
    have hpe : p = r'.1 := le_antisymm h2 hp
    obtain ⟨w, hw⟩ := record_total h hi (List.mem_of_getElem? hq') (zo / zg)
    rw [gas_between h hr' hq' hlt hp (by rw [hpe]; exact hlt.le) hi hv' hw, hpe, sub_self, zero_div, zero_mul, div_self (by linarith)]
    congr 1
    ring

/-- Undersaturated gas between the pressures of two records is the mean of the two records at its own amount of vaporised oil. -/
theorem live_gas_between {t : OilRecords} (h : GasTable t) {T : Live} (c : liveGas [t.map encode] = .ok T) {cfg : Config} {z : List Rat} {zo zg : Rat} (hz : Volumes cfg z zo zg) (h0 : 0 < zg) {p s : Rat}
    (hs : satRv t p = .ok s) (hle : zo / zg ≤ s) {i : Nat} {r r' : Rat × List (Rat × Rat × Rat)} (hr : t[i]? = some r) (hr' : t[i + 1]? = some r') (h1 : r.1 ≤ p) (h2 : p ≤ r'.1) :
    ∃ B B' mu mu', recordB r (zo / zg) = .ok B ∧ recordB r' (zo / zg) = .ok B' ∧ recordMu r (zo / zg) = .ok mu ∧ recordMu r' (zo / zg) = .ok mu' ∧
      oneB (.gas T) cfg z p = .ok (B + (p - r.1) / (r'.1 - r.1) * (B' - B)) ∧ oneMu (.gas T) cfg z p = .ok (mu + (p - r.1) / (r'.1 - r.1) * (mu' - mu)) := by
  obtain rfl := gas_T h c
  obtain ⟨B, hB⟩ := record_total h (Or.inl rfl) (List.mem_of_getElem? hr) (zo / zg)
  obtain ⟨B', hB'⟩ := record_total h (Or.inl rfl) (List.mem_of_getElem? hr') (zo / zg)
  obtain ⟨m, hm⟩ := record_total h (Or.inr rfl) (List.mem_of_getElem? hr) (zo / zg)
  obtain ⟨m', hm'⟩ := record_total h (Or.inr rfl) (List.mem_of_getElem? hr') (zo / zg)
  refine ⟨B, B', m, m', hB, hB', hm, hm', ?_, ?_⟩
  · rw [gas_oneB _ hz h0.ne']
    exact gas_mean h hz h0.ne' hs hle hr hr' h1 h2 (Or.inl rfl) hB hB'
  · rw [gas_oneMu]
    exact gas_mean h hz h0.ne' hs hle hr hr' h1 h2 (Or.inr rfl) hm hm'

/-- Gas at the pressure of a record with at most its saturated vaporised oil has the properties of that record. -/
theorem gas_at_record {t : OilRecords} (h : GasTable t) {cfg : Config} {z : List Rat} {zo zg : Rat} (hz : Volumes cfg z zo zg) (h0 : zg ≠ 0) {i : Nat} {r : Rat × List (Rat × Rat × Rat)} (hr : t[i]? = some r)
    (hle : zo / zg ≤ bubble r) {item : Nat} (hi : item = 1 ∨ item = 2) : (gasLive t).gas cfg r.1 (volOf cfg z 0) item false = recordItem item r (zo / zg) := by
  have hs : satRv t r.1 = .ok (bubble r) := interpolation_reproduces _ _ (Or.inl h.press) (by simpa using h.two) (by simp) i _ _ (press_get hr) (by rw [List.getElem?_map, hr]; rfl)
  have ht := h.two
  have hl := (List.getElem?_eq_some_iff.1 hr).1
  obtain ⟨v, hv⟩ := record_total h hi (List.mem_of_getElem? hr) (zo / zg)
  by_cases hi1 : i + 1 < t.length
  · have g := List.getElem?_eq_getElem (l := t) (i := i + 1) hi1
    obtain ⟨w, hw⟩ := record_total h hi (List.mem_of_getElem? g) (zo / zg)
    have hlt : r.1 < t[i + 1].1 := by
      obtain ⟨q1, rfl⟩ := List.getElem?_eq_some_iff.1 hr
      have := List.pairwise_iff_getElem.1 h.press i (i + 1) (by simpa using q1) (by simpa using hi1) (by omega)
      simpa using this
    rw [gas_mean h hz h0 hs hle hr g (le_refl _) hlt.le hi hv hw, hv, sub_self, zero_div, zero_mul, add_zero]
  · have g := List.getElem?_eq_getElem (l := t) (i := i - 1) (by omega)
    obtain ⟨w, hw⟩ := record_total h hi (List.mem_of_getElem? g) (zo / zg)
    have hr2 : t[i - 1 + 1]? = some r := by rw [show i - 1 + 1 = i by omega]; exact hr
    have hlt : t[i - 1].1 < r.1 := by
      obtain ⟨q1, rfl⟩ := List.getElem?_eq_some_iff.1 hr
      have := List.pairwise_iff_getElem.1 h.press (i - 1) i (by simp; omega) (by simpa using q1) (by omega)
      simpa using this
    rw [gas_mean h hz h0 hs hle g hr2 hlt.le (le_refl _) hi hw hv, hv, div_self (by linarith)]
    congr 1
    ring

/-- Every point of every record is reproduced: gas with the vaporised oil of a point has at the pressure of the record the tabulated formation volume factor, viscosity and vaporised oil. -/
theorem live_gas_reproduces {t : OilRecords} (h : GasTable t) {T : Live} (c : liveGas [t.map encode] = .ok T) {cfg : Config} {z : List Rat} {zo zg : Rat} (hz : Volumes cfg z zo zg) (h0 : 0 < zg)
    (i j : Nat) (p rv B mu : Rat) (pts : List (Rat × Rat × Rat)) (hr : t[i]? = some (p, pts)) (hq : pts[j]? = some (rv, B, mu)) (hg : zo = rv * zg) :
    oneB (.gas T) cfg z p = .ok B ∧ oneMu (.gas T) cfg z p = .ok mu ∧ oneR (.gas T) cfg z p = .ok rv := by
  obtain rfl := gas_T h c
  have hm := List.mem_of_getElem? hr
  have hdec : (pts.map (·.1)).Pairwise (· > ·) := h.dec _ hm
  have h2 : 2 ≤ pts.length := h.pts _ hm
  have hR : zo / zg = rv := by rw [hg]; field_simp
  have hge : rv ≤ bubble (p, pts) := by
    unfold bubble
    cases e : pts with
    | nil => rw [e] at hq; simp at hq
    | cons a l =>
      rw [e] at hq hdec
      cases j with
      | zero => simp at hq; rw [hq]; exact le_refl _
      | succ j =>
        have := List.rel_of_pairwise_cons hdec (a' := rv) (List.mem_of_getElem? (i := j) (by rw [List.getElem?_map]; rw [List.getElem?_cons_succ] at hq; rw [hq]; rfl))
        exact le_of_lt this
  have gx : ∀ f : Rat × Rat × Rat → Rat, (pts.map f)[j]? = some (f (rv, B, mu)) := fun f => by rw [List.getElem?_map, hq]; rfl
  refine ⟨?_, ?_, ?_⟩
  · rw [gas_oneB _ hz h0.ne', gas_at_record h hz h0.ne' hr (by rw [hR]; exact hge) (Or.inl rfl), hR]
    exact interpolation_reproduces _ _ (Or.inr hdec) (by simpa using h2) (by simp) j rv B (gx (·.1)) (gx (fun q => q.2.1))
  · rw [gas_oneMu, gas_at_record h hz h0.ne' hr (by rw [hR]; exact hge) (Or.inr rfl), hR]
    exact interpolation_reproduces _ _ (Or.inr hdec) (by simpa using h2) (by simp) j rv mu (gx (·.1)) (gx (fun q => q.2.2))
  · have hs : satRv t p = .ok (bubble (p, pts)) := interpolation_reproduces _ _ (Or.inl h.press) (by simpa using h.two) (by simp) i _ _ (press_get hr) (by rw [List.getElem?_map, hr]; rfl)
    rw [oneR_eq]
    show (gasLive t).gasR cfg p (volOf cfg z 0) = _
    unfold Live.gasR
    rw [volume_oil hz, bind_ok]
    by_cases hzo : zo = 0
    · rw [if_pos hzo]
      have : rv = 0 := by
        rw [hg] at hzo
        rcases mul_eq_zero.1 hzo with e | e
        · exact e
        · exact absurd e h0.ne'
      rw [this]
    · rw [if_neg hzo, show interpCol (gasLive t).sat 0 3 p = _ from hs, bind_ok, volume_gas hz, bind_ok, gas_ratio h0.ne', bind_ok, hR, if_neg (by simpa [below] using hge)]
      rfl

/-- The vaporised oil is that of saturated gas, or all the oil there is if that is less; without gas the formation volume factor is one. -/
theorem live_gas_vaporised {t : OilRecords} (h : GasTable t) {T : Live} (c : liveGas [t.map encode] = .ok T) {cfg : Config} {z : List Rat} {zo zg : Rat} (hz : Volumes cfg z zo zg) (p : Rat) :
    ∃ s, satRv t p = .ok s ∧ (0 < zo → 0 < zg → oneR (.gas T) cfg z p = .ok (min s (zo / zg))) ∧ (zo = 0 → oneR (.gas T) cfg z p = .ok 0) ∧ (zg = 0 → 0 < zo → oneR (.gas T) cfg z p = .ok s) ∧
      (zg = 0 → oneB (.gas T) cfg z p = .ok 1) := by
  obtain rfl := gas_T h c
  obtain ⟨s, hs⟩ := satRv_total h p
  have e : oneR (.gas (gasLive t)) cfg z p = (gasLive t).gasR cfg p (volOf cfg z 0) := by rw [oneR_eq]; rfl
  have hs' : interpCol (gasLive t).sat 0 3 p = .ok s := hs
  refine ⟨s, hs, fun ho hg => ?_, fun ho => ?_, fun hg ho => ?_, fun hg => ?_⟩
  · rw [e]
    unfold Live.gasR
    rw [volume_oil hz, bind_ok, if_neg ho.ne', hs', bind_ok, volume_gas hz, bind_ok, gas_ratio hg.ne', bind_ok]
    rcases lt_or_ge s (zo / zg) with q | q
    · rw [if_pos (by simpa [below] using q), min_eq_left q.le]
    · rw [if_neg (by simpa [below] using q), min_eq_right q]
      rfl
  · rw [e]
    unfold Live.gasR
    rw [volume_oil hz, bind_ok, if_pos ho]
  · rw [e]
    unfold Live.gasR ratio
    rw [volume_oil hz, bind_ok, if_neg ho.ne', hs', bind_ok, volume_gas hz, bind_ok, if_neg (by simpa using hg), if_pos ho, bind_ok, if_pos (by rfl)]
  · rw [oneB_eq]
    show (gasLive t).gasB cfg p (volOf cfg z 0) = _
    unfold Live.gasB
    rw [volume_gas hz, bind_ok, if_pos hg]

/-- With more oil than can be vaporised, gas is that of the saturated points, whatever the volumes. -/
theorem live_gas_saturated {t : OilRecords} (h : GasTable t) {T : Live} (c : liveGas [t.map encode] = .ok T) {cfg : Config} {z : List Rat} {zo zg : Rat} (hz : Volumes cfg z zo zg) (h0 : 0 < zg) (p s : Rat)
    (hs : satRv t p = .ok s) (hlt : s < zo / zg) : oneB (.gas T) cfg z p = satBg t p ∧ oneMu (.gas T) cfg z p = satMug t p := by
  obtain rfl := gas_T h c
  rw [gas_oneB _ hz h0.ne', gas_oneMu, gas_sat h hz h0.ne' hs hlt, gas_sat h hz h0.ne' hs hlt, if_neg (by simp), if_neg (by simp)]
  exact ⟨rfl, rfl⟩

/-- Outside of the table, undersaturated gas has the properties of the first or last record, whatever the pressure. -/
theorem live_gas_outside {t : OilRecords} (h : GasTable t) {T : Live} (c : liveGas [t.map encode] = .ok T) {cfg : Config} {z : List Rat} {zo zg : Rat} (hz : Volumes cfg z zo zg) (h0 : 0 < zg) (p s : Rat)
    (hs : satRv t p = .ok s) (hle : zo / zg ≤ s) (r : Rat × List (Rat × Rat × Rat)) (hr : (t.head? = some r ∧ p < r.1) ∨ (t.getLast? = some r ∧ r.1 < p)) :
    oneB (.gas T) cfg z p = recordB r (zo / zg) ∧ oneMu (.gas T) cfg z p = recordMu r (zo / zg) := by
  obtain rfl := gas_T h c
  obtain ⟨k, q, q', ek, hq, hq', hlt, l1, l2⟩ := section_ok h p
  have ht := h.two
  have inc : ∀ {a b : Nat} {x y : Rat × List (Rat × Rat × Rat)}, t[a]? = some x → t[b]? = some y → a ≤ b → x.1 ≤ y.1 := fun {a b x y} hx hy hab =>
    mono_le (h.press.imp (fun {a b} h => le_of_lt h)) hab (press_get hx) (press_get hy)
  have key : ∀ item, item = 1 ∨ item = 2 → (gasLive t).gas cfg p (volOf cfg z 0) item false = recordItem item r (zo / zg) := by
    intro item hi
    rw [gas_unsat hz h0.ne' hs hle ek, if_neg (by simp)]
    unfold Live.gasUnder
    rw [show rd (gasLive t).sat 0 = .ok (t.map (·.1)) from rfl, bind_ok]
    rcases hr with ⟨hr, hp⟩ | ⟨hr, hp⟩
    · rw [List.head?_eq_getElem?] at hr
      have hk : k = 0 := by
        by_contra hn
        have := l1 (by omega)
        have := inc hr hq (by omega)
        linarith
      subst hk
      have : beforeFirst (t.map (·.1)) 0 p = .ok true := by
        unfold beforeFirst
        rw [if_pos rfl, rd_of_getElem? (press_get hr), bind_ok, decide_eq_true hp]
      rw [this, bind_ok, if_pos rfl, rd_of_getElem? (gas_under hr), bind_ok, interp_record hi]
    · rw [List.getLast?_eq_getElem?] at hr
      have hlk := (List.getElem?_eq_some_iff.1 hq').1
      have hk : k + 1 = t.length - 1 := by
        by_contra hn
        have := l2 (by omega)
        have := inc hq' hr (by omega)
        linarith
      have b1 : beforeFirst (t.map (·.1)) k p = .ok false := by
        unfold beforeFirst
        split
        · rename_i e0
          subst e0
          have := inc hq hr (by omega)
          rw [rd_of_getElem? (press_get hq), bind_ok, decide_eq_false (by linarith)]
        · rfl
      have b2 : beyondLast (t.map (·.1)) k p = .ok true := by
        unfold beyondLast
        rw [List.length_map, if_pos hk, rd_of_getElem? (press_get hr), bind_ok, decide_eq_true (show p > r.1 from hp)]
      rw [b1, bind_ok, if_neg (by simp), b2, bind_ok, if_pos rfl, List.length_map, rd_of_getElem? (gas_under hr), bind_ok, interp_record hi]
  rw [gas_oneB _ hz h0.ne', gas_oneMu]
  exact ⟨key 1 (Or.inl rfl), key 2 (Or.inr rfl)⟩

/-! ### Derivatives -/

/-- Whether gas is saturated does not change nearby. -/
theorem gas_sat_near {t : OilRecords} (h : GasTable t) {p s R : Rat} (hp : p ∉ t.map (·.1)) (hs : satRv t p = .ok s) (hne : R ≠ s) :
    ∃ δ, 0 < δ ∧ ∀ u, |u| < δ → ∃ s', satRv t (p + u) = .ok s' ∧ (s < R → s' < R) ∧ (R < s → R < s') := by
  obtain ⟨d, _, hd⟩ := interp_slope (yv := t.map bubble) h.press (by simpa using h.two) (by simp) hp
  obtain ⟨δ, h1, h2⟩ := hd.near hs (show 0 < |R - s| from abs_pos.2 (sub_ne_zero.2 hne))
  refine ⟨δ, h1, fun u hu => ?_⟩
  obtain ⟨s', e, hs'⟩ := h2 u hu
  refine ⟨s', e, fun q => ?_, fun q => ?_⟩
  · rw [abs_of_pos (show 0 < R - s by linarith), abs_lt] at hs'
    linarith
  · rw [abs_of_neg (show R - s < 0 by linarith), abs_lt] at hs'
    linarith

/-- Between the pressures of the table (saturated gas: also outside) and away from its own dew point, the derivative of the formation volume factor returned is the slope of the formation volume factor
returned. -/
theorem live_gas_b_derivative {t : OilRecords} (h : GasTable t) {T : Live} (c : liveGas [t.map encode] = .ok T) {cfg : Config} {z : List Rat} {zo zg : Rat} (hz : Volumes cfg z zo zg) (h0 : 0 < zg) {p s : Rat}
    (hp : p ∉ t.map (·.1)) (hs : satRv t p = .ok s) (hne : zo / zg ≠ s)
    (hin : s < zo / zg ∨ ∃ f l, t.head? = some f ∧ t.getLast? = some l ∧ f.1 < p ∧ p < l.1) :
    ∃ B d, oneB (.gas T) cfg z p = .ok B ∧ oneDB (.gas T) cfg z p = .ok (B, d) ∧ SlopeAt (oneB (.gas T) cfg z) p d := by
  obtain rfl := gas_T h c
  have ht := h.two
  obtain ⟨δ, hδ, near⟩ := gas_sat_near h hp hs hne
  have eB : ∀ p, oneB (.gas (gasLive t)) cfg z p = (gasLive t).gas cfg p (volOf cfg z 0) 1 false := fun p => gas_oneB _ hz h0.ne' p
  have eD : ∀ B d, (gasLive t).gas cfg p (volOf cfg z 0) 1 false = .ok B → (gasLive t).gas cfg p (volOf cfg z 0) 1 true = .ok d → oneDB (.gas (gasLive t)) cfg z p = .ok (B, d) := by
    intro B d e1 e2
    rw [oneDB_eq_ok]
    show (gasLive t).gasBDeriv cfg p (volOf cfg z 0) = _
    unfold Live.gasBDeriv
    rw [volume_gas hz, bind_ok, if_neg h0.ne', e1, bind_ok, e2, bind_ok]
  rcases lt_or_gt_of_ne hne with q | q
  · obtain ⟨f, l, hf, hl, hfp, hpl⟩ : ∃ f l, t.head? = some f ∧ t.getLast? = some l ∧ f.1 < p ∧ p < l.1 := by
      rcases hin with h1 | h1
      · linarith
      · exact h1
    obtain ⟨k, r, r', ek, hr, hr', hlt, l1, l2⟩ := section_ok h p
    have hk := (List.getElem?_eq_some_iff.1 hr').1
    have n1 : r.1 ≠ p := fun e => hp (by rw [← e]; exact List.mem_map_of_mem (List.mem_of_getElem? hr))
    have n2 : r'.1 ≠ p := fun e => hp (by rw [← e]; exact List.mem_map_of_mem (List.mem_of_getElem? hr'))
    have lo : r.1 < p := by
      rcases Nat.eq_zero_or_pos k with e | e
      · subst e
        rw [List.head?_eq_getElem?, hr] at hf
        cases hf
        exact hfp
      · exact lt_of_le_of_ne (l1 e) n1
    have hi : p < r'.1 := by
      by_cases e : k + 2 < t.length
      · exact lt_of_le_of_ne (l2 e) (Ne.symm n2)
      · rw [List.getLast?_eq_getElem?, show t.length - 1 = k + 1 by omega, hr'] at hl
        cases hl
        exact hpl
    obtain ⟨v, hv⟩ := record_total h (Or.inl rfl) (List.mem_of_getElem? hr) (zo / zg)
    obtain ⟨v', hv'⟩ := record_total h (Or.inl rfl) (List.mem_of_getElem? hr') (zo / zg)
    have val := gas_mean h hz h0.ne' hs q.le hr hr' lo.le hi.le (Or.inl rfl) hv hv'
    have der : (gasLive t).gas cfg p (volOf cfg z 0) 1 true = .ok ((v' - v) / (r'.1 - r.1)) := by
      rw [gas_unsat hz h0.ne' hs q.le ek, if_pos rfl]
      exact gas_under_deriv h hr hr' hlt (Or.inl rfl) hv hv'
    refine ⟨_, _, by rw [eB]; exact val, eD _ _ val der, _, 0, min δ (min (p - r.1) (r'.1 - p)), by rw [eB]; exact val, lt_min hδ (lt_min (by linarith) (by linarith)), fun u hu => ?_⟩
    obtain ⟨u1, u2⟩ := lt_min_iff.1 hu
    obtain ⟨u2, u3⟩ := lt_min_iff.1 u2
    rw [abs_lt] at u2 u3
    obtain ⟨s', es, _, hs'⟩ := near u u1
    refine ⟨_, by rw [eB]; exact gas_mean h hz h0.ne' es (hs' q).le hr hr' (by linarith) (by linarith) (Or.inl rfl) hv hv', ?_⟩
    rw [show v + (p + u - r.1) / (r'.1 - r.1) * (v' - v) - (v + (p - r.1) / (r'.1 - r.1) * (v' - v)) - (v' - v) / (r'.1 - r.1) * u = 0 by ring]
    simp
  · obtain ⟨d, e, sl⟩ := interp_slope (yv := t.map bubbleB) h.press (by simpa using h.two) (by simp) hp
    obtain ⟨B, hB⟩ := sl.value
    have val : (gasLive t).gas cfg p (volOf cfg z 0) 1 false = .ok B := by rw [gas_sat h hz h0.ne' hs q, if_neg (by simp)]; exact hB
    refine ⟨B, d, by rw [eB]; exact val, eD _ _ val (by rw [gas_sat h hz h0.ne' hs q, if_pos rfl]; exact e), sl.congr hδ (fun u hu => ?_)⟩
    obtain ⟨s', es, hs', _⟩ := near u hu
    rw [eB, gas_sat h hz h0.ne' es (hs' q), if_neg (by simp)]
    rfl

/-- The same for the vaporised oil, at any pressure which is not in the table. -/
theorem live_gas_r_derivative {t : OilRecords} (h : GasTable t) {T : Live} (c : liveGas [t.map encode] = .ok T) {cfg : Config} {z : List Rat} {zo zg : Rat} (hz : Volumes cfg z zo zg) (h0 : 0 < zg) {p s : Rat}
    (hp : p ∉ t.map (·.1)) (hs : satRv t p = .ok s) (hne : zo / zg ≠ s) :
    ∃ R d, oneR (.gas T) cfg z p = .ok R ∧ oneDR (.gas T) cfg z p = .ok (R, d) ∧ SlopeAt (oneR (.gas T) cfg z) p d := by
  obtain rfl := gas_T h c
  have eR : ∀ p, oneR (.gas (gasLive t)) cfg z p = (gasLive t).gasR cfg p (volOf cfg z 0) := fun p => by rw [oneR_eq]; rfl
  have eD : oneDR (.gas (gasLive t)) cfg z p = (gasLive t).gasRDeriv cfg p (volOf cfg z 0) := by rw [oneDR_eq]; rfl
  have hs0 : interpCol (gasLive t).sat 0 3 p = .ok s := hs
  rw [eD]
  by_cases hg : zo = 0
  · have e0 : ∀ p, oneR (.gas (gasLive t)) cfg z p = .ok 0 := fun p => by
      rw [eR]
      unfold Live.gasR
      rw [volume_oil hz, bind_ok, if_pos hg]
    refine ⟨0, 0, e0 p, ?_, (slope_const 0 p).congr one_pos (fun u _ => e0 _)⟩
    unfold Live.gasRDeriv
    rw [volume_oil hz, bind_ok, if_pos hg]
  · obtain ⟨δ, hδ, near⟩ := gas_sat_near h hp hs hne
    have val : ∀ p s, satRv t p = .ok s → oneR (.gas (gasLive t)) cfg z p = if s < zo / zg then .ok s else .ok (zo / zg) := fun p s hs => by
      rw [eR]
      unfold Live.gasR
      rw [volume_oil hz, bind_ok, if_neg hg, show interpCol (gasLive t).sat 0 3 p = .ok s from hs, bind_ok, volume_gas hz, bind_ok, gas_ratio h0.ne', bind_ok]
      by_cases q : s < zo / zg
      · rw [if_pos (by simpa [below] using q), if_pos q]
      · rw [if_neg (by simpa [below] using q), if_neg q]
        rfl
    rcases lt_or_gt_of_ne hne with q | q
    · refine ⟨zo / zg, 0, by rw [val p s hs, if_neg (by linarith)], ?_, (slope_const (zo / zg) p).congr hδ (fun u hu => ?_)⟩
      · unfold Live.gasRDeriv
        rw [volume_oil hz, bind_ok, if_neg hg, hs0, bind_ok, volume_gas hz, bind_ok, gas_ratio h0.ne', bind_ok, if_neg (by simpa [below] using q.le)]
        rfl
      · obtain ⟨s', es, _, hs'⟩ := near u hu
        have := hs' q
        rw [val _ s' es, if_neg (by linarith)]
    · obtain ⟨d, e, sl⟩ := interp_slope (yv := t.map bubble) h.press (by simpa using h.two) (by simp) hp
      refine ⟨s, d, by rw [val p s hs, if_pos q], ?_, sl.congr hδ (fun u hu => ?_)⟩
      · unfold Live.gasRDeriv
        rw [volume_oil hz, bind_ok, if_neg hg, hs0, bind_ok, volume_gas hz, bind_ok, gas_ratio h0.ne', bind_ok, if_pos (by simpa [below] using q), show derivCol (gasLive t).sat 0 3 p = .ok d from e, bind_ok]
      · obtain ⟨s', es, hs', _⟩ := near u hu
        rw [val _ s' es, if_pos (hs' q)]
        exact es.symm

/-! ### Examples, and what does not hold -/

/-- Two records. -/
def gasSample : OilRecords := [(100, [(4, 10, 1), (0, 12, 2)]), (200, [(8, 5, 2), (0, 7, 4)])]

theorem gasSample_ok : GasTable gasSample := ⟨by decide, by decide +kernel, by decide, by decide +kernel⟩

/-- The hypotheses of the theorems above are met: undersaturated and saturated gas between two pressures. -/
example : satRv gasSample 150 = .ok 6 ∧ (150 : Rat) ∉ gasSample.map (·.1) ∧ (2 : Rat) / 1 ≤ 6 ∧ (6 : Rat) < 7 / 1 ∧
    oneB (.gas (gasLive gasSample)) ⟨2, [2, 0, 1]⟩ [2, 1] 150 = .ok (35 / 4) ∧ oneB (.gas (gasLive gasSample)) ⟨2, [2, 0, 1]⟩ [7, 1] 150 = .ok (15 / 2) := by decide +kernel

/-- Outside of the table, the formation volume factor of undersaturated gas does not depend on pressure, but the derivative returned is not zero. -/
theorem derivative_outside_table : ∃ (t : OilRecords) (T : Live) (p B d : Rat), GasTable t ∧ liveGas [t.map encode] = .ok T ∧ d ≠ 0 ∧ oneDB (.gas T) ⟨2, [2, 0, 1]⟩ [1, 1] p = .ok (B, d) ∧
    ∀ q, p - 1 ≤ q → oneB (.gas T) ⟨2, [2, 0, 1]⟩ [1, 1] q = .ok B := by
  refine ⟨gasSample, gasLive gasSample, 300, 27 / 4, -19 / 400, gasSample_ok, liveGas_ok gasSample_ok.ne, by norm_num, by decide +kernel, fun q hq => ?_⟩
  obtain ⟨s, hs⟩ := satRv_total gasSample_ok q
  have h0 : satRv gasSample 200 = .ok 8 := by decide +kernel
  have hge : (8 : Rat) ≤ s := (interpolation_monotone _ _ gasSample_ok.press (by decide) (by decide) 200 q 8 s (by linarith) h0 hs).1 (by decide +kernel)
  rw [(live_gas_outside gasSample_ok (liveGas_ok gasSample_ok.ne) ⟨⟨0, rfl, rfl⟩, ⟨1, rfl, rfl⟩⟩ one_pos q s hs (by norm_num; linarith) (200, [(8, 5, 2), (0, 7, 4)]) (Or.inr ⟨rfl, by show (200 : Rat) < q; linarith⟩)).1]
  decide +kernel

/-- A record with undersaturated points beside one without: undersaturated gas between them is undefined behaviour. -/
theorem mixed_records_undefined : ∃ (t : OilRecords) (T : Live), (t.map (·.1)).Pairwise (· < ·) ∧ (∀ r ∈ t, r.2 ≠ []) ∧ liveGas [t.map encode] = .ok T ∧
    oneB (.gas T) ⟨2, [2, 0, 1]⟩ [1, 1] 150 = .error .ub :=
  ⟨[(100, [(4, 10, 1), (0, 12, 2)]), (200, [(8, 5, 2)])], gasLive [(100, [(4, 10, 1), (0, 12, 2)]), (200, [(8, 5, 2)])], by decide +kernel, by decide, liveGas_ok (by decide), by decide +kernel⟩

/-- Without undersaturated points, undersaturated gas is treated like saturated gas within the table, but is undefined behaviour outside. -/
theorem single_points_outside_undefined : ∃ (t : OilRecords) (T : Live), (t.map (·.1)).Pairwise (· < ·) ∧ (∀ r ∈ t, r.2 ≠ []) ∧ liveGas [t.map encode] = .ok T ∧
    oneB (.gas T) ⟨2, [2, 0, 1]⟩ [1, 1] 150 = .ok (15 / 2) ∧ oneB (.gas T) ⟨2, [2, 0, 1]⟩ [1, 1] 300 = .error .ub :=
  ⟨[(100, [(4, 10, 1)]), (200, [(8, 5, 2)])], gasLive [(100, [(4, 10, 1)]), (200, [(8, 5, 2)])], by decide +kernel, by decide, liveGas_ok (by decide), by decide +kernel, by decide +kernel⟩

/-- Where there is neither oil nor gas the formation volume factor is one, but the viscosity is not a number. -/
theorem viscosity_without_fluid {t : OilRecords} (h : GasTable t) {T : Live} (c : liveGas [t.map encode] = .ok T) {cfg : Config} {z : List Rat} (hz : Volumes cfg z 0 0) (p : Rat) :
    oneB (.gas T) cfg z p = .ok 1 ∧ oneMu (.gas T) cfg z p = .error .nonFinite := by
  obtain ⟨s, hs, _, _, _, h1⟩ := live_gas_vaporised h c hz p
  refine ⟨h1 rfl, ?_⟩
  obtain rfl := gas_T h c
  obtain ⟨i, r, r', e, _⟩ := section_ok h p
  rw [gas_oneMu]
  unfold Live.gas
  rw [show interpCol (gasLive t).sat 0 3 p = .ok s from hs, bind_ok, show rd (gasLive t).sat 0 = .ok (t.map (·.1)) from rfl, bind_ok, e, bind_ok, volume_oil hz, bind_ok, volume_gas hz, bind_ok]
  rfl

end Opm.Pvt
