import Verif.Proofs.LiveOil
/-!
# Live oil (C87)

`OilTable t` describes usable records of PVTO, `Constructed t T` the object built from them; all properties are those returned by the interface for one point (`oneB`, `oneMu`, `oneR`, `oneDB`,
`oneDR`), and by `batch_b` and so on for many points.
-/

namespace Opm.Pvt
open Opm Opm.Interp Opm.Rock

/-- The object can be built, although most records may have a bubble point only. -/
theorem live_oil_new {t : OilRecords} (h : OilTable t) : ∃ T, Constructed t T := by
  obtain ⟨T, c, _⟩ := liveOil_built h
  exact ⟨T, c⟩

theorem under_interp {t : OilRecords} {T : Live} (b : Built t T) {j : Nat} {r : Rat × List (Rat × Rat × Rat)} (hr : t[j]? = some r) (item : Nat) (hi : item = 1 ∨ item = 2) (p : Rat) :
    ∃ w, interpCol (T.under.getD j []) 0 item p = .ok w := by
  obtain ⟨P', B', V', g, l⟩ := b.tab j r hr
  unfold interpCol
  rw [g.eq]
  rcases hi with rfl | rfl
  · exact interp_total g.inc_lt l g.lenB p
  · exact interp_total g.inc_lt l g.lenV p

/-- Dissolved gas of saturated oil at the pressure of a point of record `i` is at least that of the record. -/
theorem satRs_ge {t : OilRecords} (h : OilTable t) {i : Nat} {r : Rat × List (Rat × Rat × Rat)} (hr : t[i]? = some r) {p : Rat} (hp : bubble r ≤ p) {s : Rat} (hs : satRs t p = .ok s) : r.1 ≤ s := by
  have e := interpolation_reproduces (t.map bubble) (t.map (·.1)) (Or.inl h.bub_lt) (by simpa using h.two) (by simp) i (bubble r) r.1 (by rw [List.getElem?_map, hr]; rfl) (by rw [List.getElem?_map, hr]; rfl)
  exact (interpolation_monotone (t.map bubble) (List.map (fun r : Rat × List (Rat × Rat × Rat) => r.1) t) h.bub_lt (by simpa using h.two) (by simp) _ _ _ _ hp e hs).1 (h.rs.imp (fun {a b} h => le_of_lt h))

theorem bubble_le {t : OilRecords} (h : OilTable t) {r : Rat × List (Rat × Rat × Rat)} (hr : r ∈ t) {j : Nat} {q : Rat × Rat × Rat} (hq : r.2[j]? = some q) : bubble r ≤ q.1 := by
  unfold bubble
  have hi := h.inc r hr
  cases e : r.2 with
  | nil => rw [e] at hq; simp at hq
  | cons a l =>
    rw [e] at hq hi
    cases j with
    | zero => simp at hq; rw [hq]; exact le_refl _
    | succ j =>
      have := spaced_lt hi (show 0 < j + 1 by omega) (a := a.1) (b := q.1) rfl (by rw [List.getElem?_map, hq]; rfl)
      show a.1 ≤ q.1
      linarith

/-- Every point of every record is reproduced: oil with the dissolved gas of the record has at that pressure the tabulated formation volume factor, viscosity and dissolved gas. -/
theorem live_oil_reproduces {t : OilRecords} (h : OilTable t) {T : Live} (c : Constructed t T) {cfg : Config} {z : List Rat} {zo zg : Rat} (hz : Volumes cfg z zo zg) (h0 : 0 < zo)
    (i j : Nat) (rs p B mu : Rat) (pts : List (Rat × Rat × Rat)) (hr : t[i]? = some (rs, pts)) (hq : pts[j]? = some (p, B, mu)) (hg : zg = rs * zo) :
    oneB (.oil T) cfg z p = .ok B ∧ oneMu (.oil T) cfg z p = .ok mu ∧ oneR (.oil T) cfg z p = .ok rs := by
  have b := built h c
  have hm := List.mem_of_getElem? hr
  have hBpos := h.pos _ hm _ (List.mem_of_getElem? hq)
  have hR : zg / zo = rs := by rw [hg]; field_simp
  obtain ⟨s, hs⟩ := satRs_total h p
  have hge : rs ≤ s := satRs_ge h hr (bubble_le h hm hq) hs
  obtain ⟨P', B', V', g, l⟩ := b.tab i _ hr
  have hj := (List.getElem?_eq_some_iff.1 hq).1
  have ge : ∀ {f : Rat × Rat × Rat → Rat} {l' : List Rat}, (pts.map f ++ l')[j]? = some (f (p, B, mu)) := fun {f l'} => by rw [List.getElem?_append_left (by simpa using hj), List.getElem?_map, hq]; rfl
  have key : ∀ item v, (item = 1 ∨ item = 2) → interpCol (T.under.getD i []) 0 item p = .ok v → T.oil cfg p (volOf cfg z 0) item false = .ok v := by
    intro item v hi hv
    rw [oil_under b hz h0.ne' hs (by rw [hR]; exact hge) item false, hR]
    exact oilMean_at h b hr (r := (rs, pts)) (fun j' r' hr' => under_interp b hr' item hi p) hv
  refine ⟨?_, ?_, ?_⟩
  · rw [oneB_eq]
    show T.oilB cfg p (volOf cfg z 0) = _
    unfold Live.oilB
    rw [key 1 (1 / B) (Or.inl rfl) (by
      unfold interpCol
      rw [g.eq]
      exact interpolation_reproduces _ _ (Or.inl g.inc_lt) l g.lenB j p (1 / B) ge ge), bind_ok, fdiv_ok (by positivity)]
    congr 1
    have : 0 < B := hBpos
    field_simp
  · rw [oneMu_eq]
    exact key 2 mu (Or.inr rfl) (by
      unfold interpCol
      rw [g.eq]
      exact interpolation_reproduces _ _ (Or.inl g.inc_lt) l g.lenV j p mu ge ge)
  · rw [oneR_eq]
    show T.oilR cfg p (volOf cfg z 0) = _
    unfold Live.oilR ratio
    rw [volume_gas hz, bind_ok]
    by_cases hzg : zg = 0
    · rw [if_pos hzg]
      have : rs = 0 := by
        rw [hg] at hzg
        rcases mul_eq_zero.1 hzg with e | e
        · exact e
        · exact absurd e h0.ne'
      rw [this]
    · rw [if_neg hzg, sat_rs b, hs, bind_ok, volume_oil hz, bind_ok, if_pos h0.ne', bind_ok, hR, if_neg (by simpa [below] using hge)]
      rfl

/-- The gas in solution is that of saturated oil, or all the gas there is if that is less. -/
theorem live_oil_dissolved {t : OilRecords} (h : OilTable t) {T : Live} (c : Constructed t T) {cfg : Config} {z : List Rat} {zo zg : Rat} (hz : Volumes cfg z zo zg) (p : Rat) :
    ∃ s, satRs t p = .ok s ∧ (0 < zo → 0 < zg → oneR (.oil T) cfg z p = .ok (min s (zg / zo))) ∧ (zg = 0 → oneR (.oil T) cfg z p = .ok 0) ∧ (zo = 0 → 0 < zg → oneR (.oil T) cfg z p = .ok s) := by
  have b := built h c
  obtain ⟨s, hs⟩ := satRs_total h p
  have e : oneR (.oil T) cfg z p = T.oilR cfg p (volOf cfg z 0) := by rw [oneR_eq]; rfl
  refine ⟨s, hs, fun h0 hg => ?_, fun hg => ?_, fun h0 hg => ?_⟩
  · rw [e]
    unfold Live.oilR ratio
    rw [volume_gas hz, bind_ok, if_neg hg.ne', sat_rs b, hs, bind_ok, volume_oil hz, bind_ok, if_pos h0.ne', bind_ok]
    rcases lt_or_ge s (zg / zo) with q | q
    · rw [if_pos (by simpa [below] using q), min_eq_left q.le]
    · rw [if_neg (by simpa [below] using q), min_eq_right q]
      rfl
  · rw [e]
    unfold Live.oilR
    rw [volume_gas hz, bind_ok, if_pos hg]
  · rw [e]
    unfold Live.oilR ratio
    rw [volume_gas hz, bind_ok, if_neg hg.ne', sat_rs b, hs, bind_ok, volume_oil hz, bind_ok, if_neg (by simpa using h0), if_pos hg, bind_ok, if_pos (by rfl)]

/-- With more gas than can be dissolved, oil is that of the bubble points, whatever the volumes. -/
theorem live_oil_saturated {t : OilRecords} (h : OilTable t) {T : Live} (c : Constructed t T) {cfg : Config} {z : List Rat} {zo zg : Rat} (hz : Volumes cfg z zo zg) (h0 : 0 < zo) (p s : Rat)
    (hs : satRs t p = .ok s) (hlt : s < zg / zo) : oneB (.oil T) cfg z p = satB t p ∧ oneMu (.oil T) cfg z p = satMu t p := by
  have b := built h c
  constructor
  · rw [oneB_eq]
    show T.oilB cfg p (volOf cfg z 0) = _
    unfold Live.oilB
    rw [oil_sat b hz h0.ne' hs hlt, if_neg (by simp)]
    unfold interpCol satB
    rw [b.sat]
    rfl
  · rw [oneMu_eq]
    show T.oil cfg p (volOf cfg z 0) 2 false = _
    rw [oil_sat b hz h0.ne' hs hlt, if_neg (by simp)]
    unfold interpCol satMu
    rw [b.sat]
    rfl

/-- At a bubble point of the table, oil with the gas of that record or more has the tabulated values. -/
theorem live_oil_bubble {t : OilRecords} (h : OilTable t) {T : Live} (c : Constructed t T) {cfg : Config} {z : List Rat} {zo zg : Rat} (hz : Volumes cfg z zo zg) (h0 : 0 < zo)
    (i : Nat) (rs p B mu : Rat) (pts : List (Rat × Rat × Rat)) (hr : t[i]? = some (rs, (p, B, mu) :: pts)) (hg : rs * zo ≤ zg) :
    oneB (.oil T) cfg z p = .ok B ∧ oneMu (.oil T) cfg z p = .ok mu := by
  rcases eq_or_lt_of_le hg with e | e
  · obtain ⟨h1, h2, _⟩ := live_oil_reproduces h c hz h0 i 0 rs p B mu _ hr rfl e.symm
    exact ⟨h1, h2⟩
  · have hB : 0 < B := h.pos _ (List.mem_of_getElem? hr) _ List.mem_cons_self
    have gx : (t.map bubble)[i]? = some p := by rw [List.getElem?_map, hr]; rfl
    have gy : (t.map (·.1))[i]? = some rs := by rw [List.getElem?_map, hr]; rfl
    have hs : satRs t p = .ok rs := interpolation_reproduces _ _ (Or.inl h.bub_lt) (by simpa using h.two) (by simp) i p rs gx gy
    obtain ⟨e1, e2⟩ := live_oil_saturated h c hz h0 p rs hs (by rw [lt_div_iff₀ h0]; exact e)
    rw [e1, e2]
    constructor
    · unfold satB
      rw [interpolation_reproduces _ _ (Or.inl h.bub_lt) (by simpa using h.two) (by simp) i p (1 / B) gx (by rw [List.getElem?_map, hr]; rfl), bind_ok, fdiv_ok (by positivity)]
      congr 1
      field_simp
    · exact interpolation_reproduces _ _ (Or.inl h.bub_lt) (by simpa using h.two) (by simp) i p mu gx (by rw [List.getElem?_map, hr]; rfl)

/-! ### Derivatives -/

theorem sat_slope {t : OilRecords} (h : OilTable t) {T : Live} (b : Built t T) (item : Nat) (hi : item = 1 ∨ item = 3) {p : Rat} (hp : p ∉ t.map bubble) :
    ∃ d, derivCol T.sat 0 item p = .ok d ∧ SlopeAt (interpCol T.sat 0 item) p d := by
  have key : ∀ yv : List Rat, yv.length = t.length → ∃ d, linearInterpolationDerivative (t.map bubble) yv p = .ok d ∧ SlopeAt (linearInterpolation (t.map bubble) yv) p d := fun yv hl =>
    interp_slope h.bub_lt (by simpa using h.two) (by simpa using hl) hp
  unfold derivCol interpCol
  rw [b.sat]
  rcases hi with rfl | rfl
  · exact key _ (by simp)
  · exact key _ (by simp)

theorem satRs_slope {t : OilRecords} (h : OilTable t) {p : Rat} (hp : p ∉ t.map bubble) : ∃ d, SlopeAt (satRs t) p d := by
  obtain ⟨d, _, hd⟩ := interp_slope (yv := t.map (·.1)) h.bub_lt (by simpa using h.two) (by simp) hp
  exact ⟨d, hd⟩

/-- Whether oil is saturated does not change nearby. -/
theorem sat_near {t : OilRecords} (h : OilTable t) {p s R : Rat} (hp : p ∉ t.map bubble) (hs : satRs t p = .ok s) (hne : R ≠ s) :
    ∃ δ, 0 < δ ∧ ∀ u, |u| < δ → ∃ s', satRs t (p + u) = .ok s' ∧ (s < R → s' < R) ∧ (R < s → R < s') := by
  obtain ⟨d, hd⟩ := satRs_slope h hp
  obtain ⟨δ, h1, h2⟩ := hd.near hs (show 0 < |R - s| from abs_pos.2 (sub_ne_zero.2 hne))
  refine ⟨δ, h1, fun u hu => ?_⟩
  obtain ⟨s', e, hs'⟩ := h2 u hu
  refine ⟨s', e, fun q => ?_, fun q => ?_⟩
  · rw [abs_of_pos (show 0 < R - s by linarith), abs_lt] at hs'
    linarith
  · rw [abs_of_neg (show R - s < 0 by linarith), abs_lt] at hs'
    linarith

/-- The slope of `1/B` computed is the slope of the `1/B` computed. -/
theorem oil_slope {t : OilRecords} (h : OilTable t) {T : Live} (b : Built t T) {cfg : Config} {z : List Rat} {zo zg : Rat} (hz : Volumes cfg z zo zg) (h0 : 0 < zo) {p s : Rat}
    (hp : ∀ r ∈ t, ∀ q ∈ r.2, q.1 ≠ p) (hs : satRs t p = .ok s) (hne : zg / zo ≠ s) :
    ∃ d, T.oil cfg p (volOf cfg z 0) 1 true = .ok d ∧ SlopeAt (fun p => T.oil cfg p (volOf cfg z 0) 1 false) p d := by
  have hpb : p ∉ t.map bubble := by
    intro hm
    obtain ⟨r, hr, e⟩ := List.mem_map.1 hm
    unfold bubble at e
    cases e' : r.2 with
    | nil => exact h.ne r hr e'
    | cons q l =>
      rw [e'] at e
      exact hp r hr q (by rw [e']; exact List.mem_cons_self) e
  obtain ⟨δ, hδ, near⟩ := sat_near h hpb hs hne
  rcases lt_or_gt_of_ne hne with q | q
  · obtain ⟨i, r, r', w, hr, hr', hlt, hw, _, hok, _⟩ := oilMean_ok h b (zg / zo)
    have tab : ∀ j r, t[j]? = some r → ∃ d, derivCol (T.under.getD j []) 0 1 p = .ok d ∧ SlopeAt (interpCol (T.under.getD j []) 0 1) p d := by
      intro j r hr
      obtain ⟨P', B', V', g, l⟩ := b.tab j r hr
      have hn : p ∉ r.2.map (·.1) ++ P' := by
        intro hm
        obtain ⟨r1, hr1, q1, hq1, e⟩ := g.from' p hm
        exact hp r1 hr1 q1 hq1 e
      unfold derivCol interpCol
      rw [g.eq]
      exact interp_slope g.inc_lt l g.lenB hn
    obtain ⟨d1, e1, s1⟩ := tab i r hr
    obtain ⟨d2, e2, s2⟩ := tab (i + 1) r' hr'
    refine ⟨d1 + w * (d2 - d1), ?_, (s1.mean w s2).congr hδ (fun u hu => ?_)⟩
    · rw [oil_under b hz h0.ne' hs q.le]
      exact hok _ d1 d2 (by simpa using e1) (by simpa using e2)
    · obtain ⟨s', es, _, hs'⟩ := near u hu
      obtain ⟨v1, f1⟩ := under_interp b hr 1 (Or.inl rfl) (p + u)
      obtain ⟨v2, f2⟩ := under_interp b hr' 1 (Or.inl rfl) (p + u)
      show T.oil cfg (p + u) (volOf cfg z 0) 1 false = _
      rw [oil_under b hz h0.ne' es (hs' q).le, f1, bind_ok, f2, bind_ok]
      exact hok _ v1 v2 (by simpa using f1) (by simpa using f2)
  · obtain ⟨d, e, sl⟩ := sat_slope h b 1 (Or.inl rfl) hpb
    refine ⟨d, by rw [oil_sat b hz h0.ne' hs q, if_pos rfl]; exact e, sl.congr hδ (fun u hu => ?_)⟩
    obtain ⟨s', es, hs', _⟩ := near u hu
    show T.oil cfg (p + u) (volOf cfg z 0) 1 false = _
    rw [oil_sat b hz h0.ne' es (hs' q), if_neg (by simp)]

/-- Away from the pressures of the table and from its own bubble point, the derivative of the formation volume factor returned is the slope of the formation volume factor returned. -/
theorem live_oil_b_derivative {t : OilRecords} (h : OilTable t) {T : Live} (c : Constructed t T) {cfg : Config} {z : List Rat} {zo zg : Rat} (hz : Volumes cfg z zo zg) (h0 : 0 < zo) {p s B : Rat}
    (hp : ∀ r ∈ t, ∀ q ∈ r.2, q.1 ≠ p) (hs : satRs t p = .ok s) (hne : zg / zo ≠ s) (hB : oneB (.oil T) cfg z p = .ok B) :
    ∃ d, oneDB (.oil T) cfg z p = .ok (B, d) ∧ SlopeAt (oneB (.oil T) cfg z) p d := by
  obtain ⟨d, e, sl⟩ := oil_slope h (built h c) hz h0 hp hs hne
  have eB : ∀ p, oneB (.oil T) cfg z p = (T.oil cfg p (volOf cfg z 0) 1 false >>= fdiv 1) := fun p => by rw [oneB_eq]; rfl
  have hB' := hB
  rw [eB] at hB'
  obtain ⟨v, hv, hd⟩ := bind_eq_ok.1 hB'
  have hv0 : v ≠ 0 := by
    intro e0
    rw [e0] at hd
    simp [fdiv] at hd
  rw [fdiv_ok hv0] at hd
  have hB1 : 1 / v = B := Except.ok.inj hd
  refine ⟨-B * B * d, ?_, ?_⟩
  · rw [oneDB_eq_ok]
    show T.oilBDeriv cfg p (volOf cfg z 0) = _
    unfold Live.oilBDeriv
    rw [show T.oilB cfg p (volOf cfg z 0) = .ok B from hB', bind_ok, e, bind_ok]
  · have := sl.recip hv hv0
    rw [hB1] at this
    exact this.congr one_pos (fun u _ => eB _)

/-- The same for the solution factor. -/
theorem live_oil_r_derivative {t : OilRecords} (h : OilTable t) {T : Live} (c : Constructed t T) {cfg : Config} {z : List Rat} {zo zg : Rat} (hz : Volumes cfg z zo zg) (h0 : 0 < zo) {p s : Rat}
    (hp : p ∉ t.map bubble) (hs : satRs t p = .ok s) (hne : zg / zo ≠ s) :
    ∃ R d, oneR (.oil T) cfg z p = .ok R ∧ oneDR (.oil T) cfg z p = .ok (R, d) ∧ SlopeAt (oneR (.oil T) cfg z) p d := by
  have b := built h c
  have eR : ∀ p, oneR (.oil T) cfg z p = T.oilR cfg p (volOf cfg z 0) := fun p => by rw [oneR_eq]; rfl
  have eD : oneDR (.oil T) cfg z p = T.oilRDeriv cfg p (volOf cfg z 0) := by rw [oneDR_eq]; rfl
  rw [eD]
  by_cases hg : zg = 0
  · have e0 : ∀ p, oneR (.oil T) cfg z p = .ok 0 := fun p => by
      rw [eR]
      unfold Live.oilR
      rw [volume_gas hz, bind_ok, if_pos hg]
    refine ⟨0, 0, e0 p, ?_, (slope_const 0 p).congr one_pos (fun u _ => e0 _)⟩
    unfold Live.oilRDeriv
    rw [volume_gas hz, bind_ok, if_pos hg]
  · obtain ⟨δ, hδ, near⟩ := sat_near h hp hs hne
    have val : ∀ p s, satRs t p = .ok s → oneR (.oil T) cfg z p = if s < zg / zo then .ok s else .ok (zg / zo) := fun p s hs => by
      rw [eR]
      unfold Live.oilR ratio
      rw [volume_gas hz, bind_ok, if_neg hg, sat_rs b, hs, bind_ok, volume_oil hz, bind_ok, if_pos h0.ne', bind_ok]
      by_cases q : s < zg / zo
      · rw [if_pos (by simpa [below] using q), if_pos q]
      · rw [if_neg (by simpa [below] using q), if_neg q]
        rfl
    rcases lt_or_gt_of_ne hne with q | q
    · refine ⟨zg / zo, 0, by rw [val p s hs, if_neg (by linarith)], ?_, (slope_const (zg / zo) p).congr hδ (fun u hu => ?_)⟩
      · unfold Live.oilRDeriv ratio
        rw [volume_gas hz, bind_ok, if_neg hg, sat_rs b, hs, bind_ok, volume_oil hz, bind_ok, if_pos h0.ne', bind_ok, if_neg (by simpa [below] using q.le)]
        rfl
      · obtain ⟨s', es, _, hs'⟩ := near u hu
        have := hs' q
        rw [val _ s' es, if_neg (by linarith)]
    · obtain ⟨d, e, sl⟩ := sat_slope h b 3 (Or.inr rfl) hp
      refine ⟨s, d, by rw [val p s hs, if_pos q], ?_, sl.congr hδ (fun u hu => ?_)⟩
      · unfold Live.oilRDeriv ratio
        rw [volume_gas hz, bind_ok, if_neg hg, sat_rs b, hs, bind_ok, volume_oil hz, bind_ok, if_pos h0.ne', bind_ok, if_pos (by simpa [below] using q), e, bind_ok]
      · obtain ⟨s', es, hs', _⟩ := near u hu
        rw [val _ s' es, if_pos (hs' q), sat_rs b, es]

/-! ### Undersaturated oil gets denser and more viscous with pressure -/

/-- If so do all records, oil with a fixed amount of dissolved gas within the range of the table shrinks and gets more viscous with pressure. -/
theorem live_oil_compresses {t : OilRecords} (h : OilTable t) (hm : OilMonotone t) {T : Live} (c : Constructed t T) {cfg : Config} {z : List Rat} {zo zg : Rat} (hz : Volumes cfg z zo zg) (h0 : 0 < zo)
    {p q s B mu mu' rs0 rsn : Rat} (hs : satRs t p = .ok s) (hle : zg / zo ≤ s) (hpq : p ≤ q) (hf : (t.map (·.1)).head? = some rs0) (hl : (t.map (·.1)).getLast? = some rsn) (hlo : rs0 ≤ zg / zo) (hhi : zg / zo ≤ rsn)
    (hB : oneB (.oil T) cfg z p = .ok B) (hBpos : 0 < B) (hmu : oneMu (.oil T) cfg z p = .ok mu) (hmu' : oneMu (.oil T) cfg z q = .ok mu') :
    (∃ B', oneB (.oil T) cfg z q = .ok B' ∧ 0 < B' ∧ B' ≤ B) ∧ mu ≤ mu' := by
  have b := built h c
  obtain ⟨s', hs'⟩ := satRs_total h q
  have hss : s ≤ s' := (interpolation_monotone (t.map bubble) (List.map (fun r : Rat × List (Rat × Rat × Rat) => r.1) t) h.bub_lt (by simpa using h.two) (by simp) _ _ _ _ hpq hs hs').1 (h.rs.imp (fun {a b} h => le_of_lt h))
  obtain ⟨i, r, r', w, hr, hr', hlt, hw, hin, hok, hinv⟩ := oilMean_ok h b (zg / zo)
  obtain ⟨w0, w1⟩ := hin rs0 rsn (by rw [← List.head?_eq_getElem?]; exact hf) (by rw [List.getLast?_eq_getElem?, List.length_map] at hl; exact hl) hlo hhi
  have key : ∀ item v v', (item = 1 ∨ item = 2) → T.oil cfg p (volOf cfg z 0) item false = .ok v → T.oil cfg q (volOf cfg z 0) item false = .ok v' → v ≤ v' := by
    intro item v v' hi hv hv'
    rw [oil_under b hz h0.ne' hs hle] at hv
    rw [oil_under b hz h0.ne' hs' (le_trans hle hss)] at hv'
    obtain ⟨a1, a2, e1, e2, rfl⟩ := hinv _ _ hv
    obtain ⟨b1, b2, f1, f2, rfl⟩ := hinv _ _ hv'
    have tab : ∀ j r x y, t[j]? = some r → interpCol (T.under.getD j []) 0 item p = .ok x → interpCol (T.under.getD j []) 0 item q = .ok y → x ≤ y := by
      intro j r x y hr hx hy
      obtain ⟨P', B', V', g, l⟩ := b.tab j r hr
      unfold interpCol at hx hy
      rw [g.eq] at hx hy
      obtain ⟨m1, m2⟩ := g.mon hm
      rcases hi with rfl | rfl
      · exact (interpolation_monotone _ _ g.inc_lt l g.lenB _ _ _ _ hpq hx hy).1 m1
      · exact (interpolation_monotone _ _ g.inc_lt l g.lenV _ _ _ _ hpq hx hy).1 m2
    have t1 := tab i r a1 b1 hr (by simpa using e1) (by simpa using f1)
    have t2 := tab (i + 1) r' a2 b2 hr' (by simpa using e2) (by simpa using f2)
    nlinarith [mul_nonneg w0 (sub_nonneg.2 t2), mul_nonneg (sub_nonneg.2 w1) (sub_nonneg.2 t1)]
  have eB : ∀ p, oneB (.oil T) cfg z p = (T.oil cfg p (volOf cfg z 0) 1 false >>= fdiv 1) := fun p => by rw [oneB_eq]; rfl
  rw [oneMu_eq] at hmu hmu'
  refine ⟨?_, key 2 mu mu' (Or.inr rfl) hmu hmu'⟩
  rw [eB] at hB
  obtain ⟨v, hv, hd⟩ := bind_eq_ok.1 hB
  have hv0 : v ≠ 0 := by
    intro e0
    rw [e0] at hd
    simp [fdiv] at hd
  rw [fdiv_ok hv0] at hd
  have hB1 : 1 / v = B := Except.ok.inj hd
  have hvp : 0 < v := by rw [← hB1] at hBpos; exact one_div_pos.1 hBpos
  obtain ⟨v1, g1⟩ := under_interp b hr 1 (Or.inl rfl) q
  obtain ⟨v2, g2⟩ := under_interp b hr' 1 (Or.inl rfl) q
  have hv' : T.oil cfg q (volOf cfg z 0) 1 false = .ok (v1 + w * (v2 - v1)) := by
    rw [oil_under b hz h0.ne' hs' (le_trans hle hss)]
    exact hok _ v1 v2 (by simpa using g1) (by simpa using g2)
  have hvv := key 1 _ _ (Or.inl rfl) hv hv'
  have hvp' : 0 < v1 + w * (v2 - v1) := lt_of_lt_of_le hvp hvv
  refine ⟨1 / (v1 + w * (v2 - v1)), by rw [eB, hv', bind_ok, fdiv_ok hvp'.ne'], by positivity, ?_⟩
  rw [← hB1]
  exact one_div_le_one_div_of_le hvp hvv

/-! ### Examples, and what does not hold -/

/-- Three records, the first of which has a bubble point only. -/
def sample : OilRecords := [(10, [(100, 2, 4)]), (20, [(200, 3, 3), (300, 2, 4)]), (40, [(400, 4, 2), (600, 3, 3)])]

theorem sample_ok : OilTable sample :=
  ⟨by decide, by decide +kernel, by decide +kernel, by decide, by decide +kernel, by decide +kernel, fun r h => by
    have e : r = (40, [(400, 4, 2), (600, 3, 3)]) := (Option.some.inj h).symm
    rw [e]
    decide⟩

theorem sample_monotone : OilMonotone sample := by unfold OilMonotone; decide +kernel

/-- The tables built from the sample. -/
def sampleLive : Live := ⟨[[100, 200, 400], [1 / 2, 1 / 3, 1 / 4], [4, 3, 2], [10, 20, 40]],
  [[[100, 300], [1 / 2, 5 / 6], [4, 6]], [[200, 300], [1 / 3, 1 / 2], [3, 4]], [[400, 600], [1 / 4, 1 / 3], [2, 3]]]⟩

theorem sample_constructed : Constructed sample sampleLive := Constructed.of_ok (fuel := 10) (by decide +kernel)

theorem sample_volumes (zo zg : Rat) : Volumes ⟨2, [2, 0, 1]⟩ [zo, zg] zo zg := ⟨⟨0, rfl, rfl⟩, ⟨1, rfl, rfl⟩⟩

/-- The hypotheses of the theorems above are met: saturated and undersaturated oil, away from the pressures of the table. -/
example : satRs sample 250 = .ok 25 ∧ (∀ r ∈ sample, ∀ q ∈ r.2, q.1 ≠ 250) ∧ (25 : Rat) < 30 / 1 ∧ (22 : Rat) / 1 ≤ 25 ∧
    oneB (.oil sampleLive) ⟨2, [2, 0, 1]⟩ [1, 22] 250 = .ok (160 / 63) ∧ oneMu (.oil sampleLive) ⟨2, [2, 0, 1]⟩ [1, 22] 250 = .ok (131 / 40) := by decide +kernel

/-- The formation volume factor jumps at the bubble point of oil between two records of different compressibility: with exactly the gas that can be dissolved it is another one than with any
more gas. -/
theorem jump_at_bubble_point : ∃ (t : OilRecords) (T : Live) (p s B B' : Rat), OilTable t ∧ Constructed t T ∧ satRs t p = .ok s ∧ B ≠ B' ∧ oneB (.oil T) ⟨2, [2, 0, 1]⟩ [1, s] p = .ok B' ∧
    ∀ ε, 0 < ε → oneB (.oil T) ⟨2, [2, 0, 1]⟩ [1, s + ε] p = .ok B := by
  refine ⟨sample, sampleLive, 300, 30, 24 / 7, 48 / 17, sample_ok, sample_constructed, by decide +kernel, by norm_num, by decide +kernel, fun ε hε => ?_⟩
  rw [(live_oil_saturated sample_ok sample_constructed (sample_volumes 1 (30 + ε)) one_pos 300 30 (by decide +kernel) (by rw [div_one]; linarith)).1]
  decide +kernel

/-- Where there is gas but no oil, the dissolved gas is that of saturated oil, while the formation volume factor is that of oil without any gas. -/
theorem no_oil_inconsistent : ∃ (t : OilRecords) (T : Live) (p s B B' : Rat), OilTable t ∧ Constructed t T ∧ satRs t p = .ok s ∧ B ≠ B' ∧ satB t p = .ok B ∧
    oneR (.oil T) ⟨2, [2, 0, 1]⟩ [0, 1] p = .ok s ∧ oneB (.oil T) ⟨2, [2, 0, 1]⟩ [0, 1] p = .ok B' ∧ oneB (.oil T) ⟨2, [2, 0, 1]⟩ [1, 0] p = .ok B' :=
  ⟨sample, sampleLive, 300, 30, 24 / 7, 6 / 7, sample_ok, sample_constructed, by decide +kernel, by norm_num, by decide +kernel, by decide +kernel, by decide +kernel, by decide +kernel⟩

/-- A table whose last record has a bubble point only is not rejected: the search for undersaturated data runs past the end of the tables. -/
theorem last_record_needs_data : ∃ t : OilRecords, 2 ≤ t.length ∧ (t.map (·.1)).Pairwise (· < ·) ∧ (t.map bubble).Pairwise (fun a b => a + 1 < b) ∧ (∃ r ∈ t, 2 ≤ r.2.length) ∧
    ∃ N, ∀ fuel, N ≤ fuel → liveOil fuel [t.map encode] = .error .ub := by
  refine ⟨[(10, [(100, 2, 4), (200, 1, 5)]), (20, [(200, 3, 3)])], by decide, by decide +kernel, by decide +kernel, by decide, 2, fun fuel hf => ?_⟩
  obtain ⟨f, rfl⟩ : ∃ f, fuel = f + 2 := ⟨fuel - 2, by omega⟩
  rfl

/-- A table of a single record is never accepted. -/
theorem single_record_undefined (r : Rat × List (Rat × Rat × Rat)) (hne : r.2 ≠ []) (hpos : ∀ q ∈ r.2, 0 < q.2.1) (fuel : Nat) : liveOil (fuel + 1) [[encode r]] = .error .ub := by
  obtain ⟨q, hq, hm⟩ : ∃ q, r.2[0]? = some q ∧ q ∈ r.2 := by
    cases e : r.2 with
    | nil => exact absurd e hne
    | cons q l => exact ⟨q, rfl, List.mem_cons_self⟩
  have eg := encode_get r hq
  have e1 : firsts ([r].map encode) 1 .ok = .ok ([r].map (fun _ => q.1)) := firsts_ok [r] 1 .ok (fun _ => q.1) _ (fun r' hr => by simp at hr; rw [hr]; exact eg.1) (fun _ _ => rfl)
  have e2 : firsts ([r].map encode) 2 (fdiv 1) = .ok ([r].map (fun _ => 1 / q.2.1)) := firsts_ok [r] 2 (fdiv 1) (fun _ => q.2.1) _ (fun r' hr => by simp at hr; rw [hr]; exact eg.2.1) (fun _ _ => fdiv_ok (hpos q hm).ne')
  have e3 : firsts ([r].map encode) 3 .ok = .ok ([r].map (fun _ => q.2.2)) := firsts_ok [r] 3 .ok (fun _ => q.2.2) _ (fun r' hr => by simp at hr; rw [hr]; exact eg.2.2) (fun _ _ => rfl)
  have e0 : firsts ([r].map encode) 0 .ok = .ok ([r].map (·.1)) := firsts_ok [r] 0 .ok (·.1) _ (fun r' hr => rfl) (fun _ _ => rfl)
  have eu : unders ([r].map encode) (fdiv 1) = .ok ([r].map (underOf (fun b => 1 / b))) := unders_ok [r] (fdiv 1) (fun b => 1 / b) (fun r' hr q' hq' => by simp at hr; rw [hr] at hq'; exact fdiv_ok (hpos q' hq').ne')
  unfold liveOil
  rw [if_neg (by simp), show rd [[encode r]] 0 = .ok ([r].map encode) from rfl, bind_ok, e1, bind_ok, e2, bind_ok, e3, bind_ok, e0, bind_ok, eu, bind_ok]
  rfl

end Opm.Pvt
