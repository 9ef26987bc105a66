import Verif.Proofs.PvtFill
import Verif.Proofs.Slope
/-! # Proofs about live oil: the tables built, and their use -/

namespace Opm.Pvt
open Opm Opm.Interp Opm.Rock

/-- The tables made from records. -/
structure Built (t : OilRecords) (T : Live) : Prop where
  sat : T.sat = [t.map bubble, t.map (fun r => 1 / bubbleB r), t.map bubbleMu, t.map (·.1)]
  len : T.under.length = t.length
  tab : ∀ (i : Nat) r, t[i]? = some r → ∃ P' B' V',
    GoodTab ⟨OilMonotone t, fun x => ∃ r ∈ t, ∃ q ∈ r.2, q.1 = x⟩ (T.under.getD i []) (r.2.map (·.1) ++ P') (r.2.map (fun q => 1 / q.2.1) ++ B') (r.2.map (fun q => q.2.2) ++ V') ∧ 2 ≤ (r.2.map (·.1) ++ P').length

theorem OilTable.under_good {t : OilRecords} (h : OilTable t) {r : Rat × List (Rat × Rat × Rat)} (hr : r ∈ t) :
    GoodTab ⟨OilMonotone t, fun x => ∃ r ∈ t, ∃ q ∈ r.2, q.1 = x⟩ (underOf (fun b => 1 / b) r) (r.2.map (·.1)) (r.2.map (fun q => 1 / q.2.1)) (r.2.map (fun q => q.2.2)) := by
  refine ⟨rfl, by simp, by simp, ?_, h.inc r hr, fun x hx => ?_, fun hm => ⟨?_, (hm r hr).2⟩⟩
  · rw [List.length_map]
    exact List.length_pos_iff.2 (h.ne r hr)
  · obtain ⟨q, hq, e⟩ := List.mem_map.1 hx
    exact ⟨r, hr, q, hq, e⟩
  · have hb := (hm r hr).1
    rw [List.pairwise_map] at hb ⊢
    exact hb.imp_of_mem (fun {a b} _ hb' hab => one_div_le_one_div_of_le (h.pos r hr b hb') hab)

theorem OilTable.records {t : OilRecords} (h : OilTable t) : Records ⟨OilMonotone t, fun x => ∃ r ∈ t, ∃ q ∈ r.2, q.1 = x⟩ (t.map (underOf (fun b => 1 / b))) (t.map (·.1)) := by
  have key : ∀ (i : Nat) u P B V, (t.map (underOf (fun b => 1 / b)))[i]? = some u → GoodTab ⟨OilMonotone t, fun x => ∃ r ∈ t, ∃ q ∈ r.2, q.1 = x⟩ u P B V → ∃ r, t[i]? = some r ∧ P = r.2.map (·.1) := by
    intro i u P B V hu g
    rw [List.getElem?_map] at hu
    cases hr : t[i]? with
    | none => rw [hr] at hu; cases hu
    | some r =>
      rw [hr] at hu
      have e : underOf (fun b => 1 / b) r = u := Option.some.inj hu
      rw [← e] at g
      exact ⟨r, rfl, (g.unique (h.under_good (List.mem_of_getElem? hr))).1⟩
  refine ⟨by simp, by simpa using h.two, fun i hi => ?_, fun u P B V hu g => ?_, h.rs, fun i j u u' P B V P' B' V' x y hij hu hu' g g' hx hy => ?_⟩
  · rw [List.length_map] at hi
    exact ⟨_, _, _, _, by rw [List.getElem?_map, List.getElem?_eq_getElem hi]; rfl, h.under_good (List.getElem_mem hi)⟩
  · obtain ⟨r, hr, rfl⟩ := key _ _ _ _ _ hu g
    rw [List.length_map]
    exact h.last r (by rw [List.getLast?_eq_getElem?, ← hr, List.length_map])
  · obtain ⟨r, hr, rfl⟩ := key _ _ _ _ _ hu g
    obtain ⟨r', hr', rfl⟩ := key _ _ _ _ _ hu' g'
    have b : ∀ (r : Rat × List (Rat × Rat × Rat)) x, (r.2.map (·.1))[0]? = some x → bubble r = x := by
      intro r x hx
      unfold bubble
      cases e : r.2 with
      | nil => rw [e] at hx; simp at hx
      | cons q l => rw [e] at hx; simpa using hx
    rw [← b r x hx, ← b r' y hy]
    exact spaced_lt h.bub hij (by rw [List.getElem?_map, hr]; rfl) (by rw [List.getElem?_map, hr']; rfl)

/-- The constructor succeeds. -/
theorem liveOil_built {t : OilRecords} (h : OilTable t) : ∃ T, Constructed t T ∧ Built t T := by
  have hd : ∀ r ∈ t, ∃ q, r.2[0]? = some q ∧ q ∈ r.2 ∧ bubble r = q.1 ∧ bubbleB r = q.2.1 ∧ bubbleMu r = q.2.2 := by
    intro r hr
    unfold bubble bubbleB bubbleMu
    cases e : r.2 with
    | nil => exact absurd e (h.ne r hr)
    | cons q l => exact ⟨q, rfl, List.mem_cons_self, rfl, rfl, rfl⟩
  have hpos : ∀ r ∈ t, bubbleB r ≠ 0 := fun r hr => by
    obtain ⟨q, _, hq, _, e, _⟩ := hd r hr
    rw [e]
    exact (h.pos r hr q hq).ne'
  have e1 : firsts (t.map encode) 1 .ok = .ok (t.map bubble) := firsts_ok t 1 .ok bubble bubble (fun r hr => by
    obtain ⟨q, h0, _, e, _, _⟩ := hd r hr
    rw [e]; exact (encode_get r h0).1) (fun _ _ => rfl)
  have e2 : firsts (t.map encode) 2 (fdiv 1) = .ok (t.map (fun r => 1 / bubbleB r)) := firsts_ok t 2 (fdiv 1) bubbleB _ (fun r hr => by
    obtain ⟨q, h0, _, _, e, _⟩ := hd r hr
    rw [e]; exact (encode_get r h0).2.1) (fun r hr => fdiv_ok (hpos r hr))
  have e3 : firsts (t.map encode) 3 .ok = .ok (t.map bubbleMu) := firsts_ok t 3 .ok bubbleMu bubbleMu (fun r hr => by
    obtain ⟨q, h0, _, _, _, e⟩ := hd r hr
    rw [e]; exact (encode_get r h0).2.2) (fun _ _ => rfl)
  have e0 : firsts (t.map encode) 0 .ok = .ok (t.map (·.1)) := firsts_ok t 0 .ok (·.1) (·.1) (fun r hr => rfl) (fun _ _ => rfl)
  have eu : unders (t.map encode) (fdiv 1) = .ok (t.map (underOf (fun b => 1 / b))) := unders_ok t (fdiv 1) (fun b => 1 / b) (fun r hr q hq => fdiv_ok (h.pos r hr q hq).ne')
  have hrec := h.records
  have h2 := h.two
  have hul : (t.map (underOf (fun b => 1 / b))).length = t.length := by simp
  obtain ⟨j, u, P, B, V, es, hj, hju, gj, lj⟩ := seek_ok hrec.good hrec.last (t.length - 1) 1 (by omega) (by omega)
  have hjl : j < t.length := by rw [← hul]; exact (List.getElem?_eq_some_iff.1 hju).1
  obtain ⟨s, N, ef, inv⟩ := fillAll_ok hrec (s := ⟨-1, j, t.map (underOf (fun b => 1 / b))⟩) ⟨rfl, fun _ _ => rfl, fun j hj => by omega, by show (-1 : Int) < ((0 : Nat) : Int); omega, fun h0 => by
    have : (0 : Int) ≤ -1 := h0
    omega, ⟨u, P, B, V, hju, gj, lj⟩⟩ t.length (by omega)
  refine ⟨⟨[t.map bubble, t.map (fun r => 1 / bubbleB r), t.map bubbleMu, t.map (·.1)], s.under⟩, ⟨max t.length N, fun fuel hf => ?_⟩, ⟨rfl, by rw [← hul]; exact inv.len, fun i r hr => ?_⟩⟩
  · unfold liveOil
    rw [if_neg (by simp), show rd [t.map encode] 0 = .ok (t.map encode) from rfl, bind_ok, e1, bind_ok, e2, bind_ok, e3, bind_ok, e0, bind_ok, eu, bind_ok,
      es fuel (by have := le_trans (le_max_left _ _) hf; omega), bind_ok, List.length_map, check_ok (by simpa using hjl), bind_ok, ef fuel (le_trans (le_max_right _ _) hf), bind_ok]
  · obtain ⟨c, c', _, _, _, hc, hc', ⟨P, B, V, P', B', V', g, g'⟩, g'', l⟩ := inv.done i (List.getElem?_eq_some_iff.1 hr).1
    rw [List.getElem?_map, hr] at hc
    have e : underOf (fun b => 1 / b) r = c := Option.some.inj hc
    rw [← e] at g
    obtain ⟨rfl, rfl, rfl⟩ := g.unique (h.under_good (List.mem_of_getElem? hr))
    obtain ⟨rfl, _, _⟩ := g''.unique g'
    refine ⟨P', B', V', ?_, l⟩
    rw [List.getD_eq_getElem?_getD, hc']
    exact g'

/-- There is only one result. -/
theorem Constructed.unique {t : OilRecords} {T T' : Live} (h : Constructed t T) (h' : Constructed t T') : T = T' := by
  obtain ⟨N, e⟩ := h
  obtain ⟨N', e'⟩ := h'
  have := (e (max N N') (le_max_left _ _)).symm.trans (e' _ (le_max_right _ _))
  exact Except.ok.inj this

/-! More steps do not change the result. -/

theorem seek_mono {under : List (List (List Rat))} : ∀ {k k' i j : Nat}, seek under k i = .ok j → k ≤ k' → seek under k' i = .ok j
  | 0, _, _, _, h, _ => by cases h
  | k + 1, 0, _, _, _, hk => by omega
  | k + 1, k' + 1, i, j, h, hk => by
    rw [seek] at h ⊢
    obtain ⟨n, hn, h⟩ := bind_eq_ok.1 h
    rw [hn, bind_ok]
    split
    · rename_i h2
      rw [if_pos h2] at h
      exact seek_mono h (by omega)
    · rename_i h2
      rwa [if_neg h2] at h

theorem fillLoop_mono {under : List (List (List Rat))} {rs : List Rat} {iPrev : Int} {iNext i : Nat} : ∀ {k k' : Nat} {s r : FillState}, fillLoop under rs iPrev iNext i k s = .ok r → k ≤ k' →
    fillLoop under rs iPrev iNext i k' s = .ok r
  | 0, _, _, _, h, _ => by cases h
  | k + 1, 0, _, _, _, hk => by omega
  | k + 1, k' + 1, s, r, h, hk => by
    rw [fillLoop] at h ⊢
    split
    · rename_i h2
      rw [if_pos h2] at h
      obtain ⟨s', hs, h⟩ := bind_eq_ok.1 h
      rw [hs, bind_ok]
      exact fillLoop_mono h (by omega)
    · rename_i h2
      rwa [if_neg h2] at h

theorem fillStep_mono {rs : List Rat} {i k k' : Nat} {s r : FillAll} (h : fillStep k rs i s = .ok r) (hk : k ≤ k') : fillStep k' rs i s = .ok r := by
  unfold fillStep at h ⊢
  obtain ⟨n, hn, h⟩ := bind_eq_ok.1 h
  rw [hn, bind_ok]
  split
  · rename_i h2
    rwa [if_pos h2] at h
  · rename_i h2
    rw [if_neg h2] at h
    obtain ⟨a, ha, h⟩ := bind_eq_ok.1 h
    have ha' : advance k' i s = .ok a := by
      unfold advance at ha ⊢
      split
      · rename_i h3
        rw [if_pos h3] at ha
        obtain ⟨j, hj, ha⟩ := bind_eq_ok.1 ha
        rw [seek_mono hj hk, bind_ok]
        exact ha
      · rename_i h3
        rwa [if_neg h3] at ha
    rw [ha', bind_ok]
    obtain ⟨fp, s1⟩ := a
    dsimp only at h ⊢
    obtain ⟨t, ht, h⟩ := bind_eq_ok.1 h
    rw [ht, bind_ok]
    obtain ⟨q, hq, h⟩ := bind_eq_ok.1 h
    rw [fillLoop_mono hq hk, bind_ok]
    exact h

theorem fill_loop_mono {rs : List Rat} {k k' : Nat} (hk : k ≤ k') : ∀ {n : Nat} {s r : FillAll}, loop n (fillStep k rs) s = .ok r → loop n (fillStep k' rs) s = .ok r
  | 0, s, r, h => h
  | n + 1, s, r, h => by
    rw [loop_succ] at h ⊢
    obtain ⟨q, hq, h⟩ := bind_eq_ok.1 h
    rw [fill_loop_mono hk hq, bind_ok]
    exact fillStep_mono h hk

theorem Constructed.of_ok {t : OilRecords} {T : Live} {fuel : Nat} (h : liveOil fuel [t.map encode] = .ok T) : Constructed t T := by
  refine ⟨fuel, fun k hk => ?_⟩
  unfold liveOil at h ⊢
  rw [if_neg (by simp)] at h ⊢
  obtain ⟨recs, e0, h⟩ := bind_eq_ok.1 h
  obtain ⟨p, e1, h⟩ := bind_eq_ok.1 h
  obtain ⟨b, e2, h⟩ := bind_eq_ok.1 h
  obtain ⟨m, e3, h⟩ := bind_eq_ok.1 h
  obtain ⟨r, e4, h⟩ := bind_eq_ok.1 h
  obtain ⟨u, e5, h⟩ := bind_eq_ok.1 h
  obtain ⟨j, e6, h⟩ := bind_eq_ok.1 h
  obtain ⟨_, e7, h⟩ := bind_eq_ok.1 h
  obtain ⟨s, e8, h⟩ := bind_eq_ok.1 h
  rw [e0, bind_ok, e1, bind_ok, e2, bind_ok, e3, bind_ok, e4, bind_ok, e5, bind_ok, seek_mono e6 hk, bind_ok, e7, bind_ok, fill_loop_mono hk e8, bind_ok]
  exact h

theorem built {t : OilRecords} (h : OilTable t) {T : Live} (c : Constructed t T) : Built t T := by
  obtain ⟨T', c', b⟩ := liveOil_built h
  rw [c.unique c']
  exact b

/-! ### Reading the tables -/

theorem OilTable.bub_lt {t : OilRecords} (h : OilTable t) : (t.map bubble).Pairwise (· < ·) := h.bub.imp (fun {a b} (h : a + 1 < b) => by linarith)

theorem GoodTab.inc_lt {Mon : Kind} {u : List (List Rat)} {P B V : List Rat} (g : GoodTab Mon u P B V) : P.Pairwise (· < ·) := g.inc.imp (fun {a b} (h : a + 1 < b) => by linarith)

theorem volume_oil {cfg : Config} {z : List Rat} {zo zg : Rat} (h : Volumes cfg z zo zg) : volume cfg (volOf cfg z 0) Liquid = .ok zo := by
  obtain ⟨k, h1, h2⟩ := h.oil
  unfold volume volOf
  rw [rd_of_getElem? h1, bind_ok, Nat.mul_zero, Nat.zero_add, rd_of_getElem? h2]

theorem volume_gas {cfg : Config} {z : List Rat} {zo zg : Rat} (h : Volumes cfg z zo zg) : volume cfg (volOf cfg z 0) Vapour = .ok zg := by
  obtain ⟨k, h1, h2⟩ := h.gas
  unfold volume volOf
  rw [rd_of_getElem? h1, bind_ok, Nat.mul_zero, Nat.zero_add, rd_of_getElem? h2]

theorem interp_total {xv yv : List Rat} (hm : xv.Pairwise (· < ·)) (h2 : 2 ≤ xv.length) (hlen : yv.length = xv.length) (x : Rat) : ∃ v, linearInterpolation xv yv x = .ok v := by
  obtain ⟨_, _, _, _, _, _, _, _, _, _, e, _⟩ := interpolation_derivative xv yv (Or.inl hm) h2 hlen x
  exact ⟨_, e⟩

theorem satRs_total {t : OilRecords} (h : OilTable t) (p : Rat) : ∃ s, satRs t p = .ok s := interp_total h.bub_lt (by simpa using h.two) (by simp) p

/-- Saturated columns. -/
theorem sat_rs {t : OilRecords} {T : Live} (b : Built t T) (p : Rat) : interpCol T.sat 0 3 p = satRs t p := by
  unfold interpCol
  rw [b.sat]
  rfl

/-- The ratio of gas to oil. -/
theorem maxR_eq {cfg : Config} {z : List Rat} {zo zg : Rat} (hz : Volumes cfg z zo zg) (h0 : zo ≠ 0) : oilMaxR cfg (volOf cfg z 0) = .ok (some (zg / zo)) := by
  unfold oilMaxR ratio
  rw [volume_oil hz, bind_ok, if_neg h0, volume_gas hz, bind_ok, if_pos h0]

/-- Saturated oil. -/
theorem oil_sat {t : OilRecords} {T : Live} (b : Built t T) {cfg : Config} {z : List Rat} {zo zg : Rat} (hz : Volumes cfg z zo zg) (h0 : zo ≠ 0) {p s : Rat} (hs : satRs t p = .ok s) (hlt : s < zg / zo)
    (item : Nat) (d : Bool) : T.oil cfg p (volOf cfg z 0) item d = if d then derivCol T.sat 0 item p else interpCol T.sat 0 item p := by
  unfold Live.oil
  rw [sat_rs b, hs, bind_ok, maxR_eq hz h0, bind_ok, if_pos (by simpa [below] using hlt)]

/-- Undersaturated oil. -/
theorem oil_under {t : OilRecords} {T : Live} (b : Built t T) {cfg : Config} {z : List Rat} {zo zg : Rat} (hz : Volumes cfg z zo zg) (h0 : zo ≠ 0) {p s : Rat} (hs : satRs t p = .ok s) (hle : zg / zo ≤ s)
    (item : Nat) (d : Bool) : T.oil cfg p (volOf cfg z 0) item d = T.oilMean (fun c => if d then derivCol c 0 item p else interpCol c 0 item p) (zg / zo) := by
  unfold Live.oil
  rw [sat_rs b, hs, bind_ok, maxR_eq hz h0, bind_ok, if_neg (by simpa [below] using hle)]
  rfl

theorem Built.get {t : OilRecords} {T : Live} (b : Built t T) {i : Nat} {r : Rat × List (Rat × Rat × Rat)} (h : t[i]? = some r) : T.under[i]? = some (T.under.getD i []) := by
  have hi := (List.getElem?_eq_some_iff.1 h).1
  rw [← b.len] at hi
  rw [List.getD_eq_getElem?_getD, List.getElem?_eq_getElem hi]
  rfl

/-- The mean between the two records around a ratio; the interval found does not depend on what is averaged. -/
theorem oilMean_ok {t : OilRecords} (h : OilTable t) {T : Live} (b : Built t T) (R : Rat) :
    ∃ i r r' w, t[i]? = some r ∧ t[i + 1]? = some r' ∧ r.1 < r'.1 ∧ w = (R - r.1) / (r'.1 - r.1) ∧
      ((∀ x y, (t.map (·.1))[0]? = some x → (t.map (·.1))[t.length - 1]? = some y → x ≤ R → R ≤ y → 0 ≤ w ∧ w ≤ 1)) ∧
      (∀ f v v', f (T.under.getD i []) = .ok v → f (T.under.getD (i + 1) []) = .ok v' → T.oilMean f R = .ok (v + w * (v' - v))) ∧
      (∀ f v, T.oilMean f R = .ok v → ∃ a a', f (T.under.getD i []) = .ok a ∧ f (T.under.getD (i + 1) []) = .ok a' ∧ v = a + w * (a' - a)) := by
  have h2 := h.two
  have hl : (t.map (·.1)).length = t.length := by simp
  have hf := List.getElem?_eq_getElem (l := t.map (·.1)) (i := 0) (by omega)
  have hla := List.getElem?_eq_getElem (l := t.map (·.1)) (i := (t.map (·.1)).length - 1) (by omega)
  obtain ⟨i, x, y, e, hx, hy, hin, _⟩ := table_index_increasing (t.map (·.1)) h.rs (by omega) R _ _ hf hla
  rw [List.getElem?_map] at hx hy
  cases hr : t[i]? with
  | none => rw [hr] at hx; cases hx
  | some r =>
    cases hr' : t[i + 1]? with
    | none => rw [hr'] at hy; cases hy
    | some r' =>
      rw [hr] at hx
      rw [hr'] at hy
      have ex : r.1 = x := Option.some.inj hx
      have ey : r'.1 = y := Option.some.inj hy
      have gx : (t.map (·.1))[i]? = some r.1 := by rw [List.getElem?_map, hr]; rfl
      have gy : (t.map (·.1))[i + 1]? = some r'.1 := by rw [List.getElem?_map, hr']; rfl
      obtain ⟨q1, rfl⟩ := List.getElem?_eq_some_iff.1 hr
      obtain ⟨q2, rfl⟩ := List.getElem?_eq_some_iff.1 hr'
      have hlt : t[i].1 < t[i + 1].1 := by
        have := List.pairwise_iff_getElem.1 h.rs i (i + 1) (by omega) (by omega) (by omega)
        simpa using this
      obtain ⟨P1, B1, V1, g1, l1⟩ := b.tab i _ hr
      obtain ⟨P2, B2, V2, g2, l2⟩ := b.tab (i + 1) _ hr'
      have eq : ∀ f, T.oilMean f R = (f (T.under.getD i []) >>= fun v1 => f (T.under.getD (i + 1) []) >>= fun v2 => .ok (v1 + (R - t[i].1) / (t[i + 1].1 - t[i].1) * (v2 - v1))) := by
        intro f
        unfold Live.oilMean
        rw [b.sat, show rd [t.map bubble, t.map (fun r => 1 / bubbleB r), t.map bubbleMu, t.map (·.1)] 3 = .ok (t.map (·.1)) from rfl, bind_ok, e, bind_ok, rd_of_getElem? gx, bind_ok, rd_of_getElem? gy, bind_ok,
          fdiv_ok (by linarith), bind_ok, rows_ok (b.get hr) g1, bind_ok, check_ok (by simpa using l1), bind_ok, rows_ok (b.get hr') g2, bind_ok, check_ok (by simpa using l2), bind_ok,
          rd_of_getElem? (b.get hr), bind_ok]
        cases f (T.under.getD i []) with
        | error _ => rfl
        | ok v => rw [bind_ok, bind_ok, rd_of_getElem? (b.get hr'), bind_ok]
      refine ⟨i, t[i], t[i + 1], _, hr, hr', hlt, rfl, fun x y hx hy h3 h4 => ?_, fun f v v' hv hv' => ?_, fun f v hv => ?_⟩
      · rw [hf] at hx
        rw [← hl, hla] at hy
        obtain ⟨k1, k2⟩ := hin (by rw [Option.some.inj hx]; exact h3) (by rw [Option.some.inj hy]; exact h4)
        rw [← ex] at k1
        rw [← ey] at k2
        exact ⟨div_nonneg (by linarith) (by linarith), by rw [div_le_one (by linarith)]; linarith⟩
      · rw [eq, hv, bind_ok, hv', bind_ok]
      · rw [eq] at hv
        obtain ⟨a, ha, hv⟩ := bind_eq_ok.1 hv
        obtain ⟨a', ha', hv⟩ := bind_eq_ok.1 hv
        exact ⟨a, a', ha, ha', (Except.ok.inj hv).symm⟩

/-- A table at the ratio of a record: only that record counts. -/
theorem oilMean_at {t : OilRecords} (h : OilTable t) {T : Live} (b : Built t T) {i : Nat} {r : Rat × List (Rat × Rat × Rat)} (hr : t[i]? = some r) {f : List (List Rat) → M Rat} {v : Rat}
    (hf : ∀ j r', t[j]? = some r' → ∃ w, f (T.under.getD j []) = .ok w) (hv : f (T.under.getD i []) = .ok v) : T.oilMean f r.1 = .ok v := by
  obtain ⟨k, r1, r2, w, h1, h2, hlt, hw, hin, hok, _⟩ := oilMean_ok h b r.1
  have hl2 := (List.getElem?_eq_some_iff.1 h2).1
  have ht2 := h.two
  have hi := (List.getElem?_eq_some_iff.1 hr).1
  have g0 := List.getElem?_eq_getElem (l := t.map (·.1)) (i := 0) (by simp; omega)
  have gl := List.getElem?_eq_getElem (l := t.map (·.1)) (i := t.length - 1) (by simp; omega)
  have hri : (t.map (·.1))[i]? = some r.1 := by rw [List.getElem?_map, hr]; rfl
  have hle : (t.map (·.1)).Pairwise (· ≤ ·) := h.rs.imp (fun {a b} h => le_of_lt h)
  obtain ⟨w0, w1⟩ := hin _ _ g0 gl (mono_le hle (Nat.zero_le i) g0 hri) (mono_le hle (by omega) hri gl)
  obtain ⟨v1, e1⟩ := hf k r1 h1
  obtain ⟨v2, e2⟩ := hf (k + 1) r2 h2
  have hd : (0 : Rat) < r2.1 - r1.1 := by linarith
  rw [hok f v1 v2 e1 e2]
  congr 1
  rcases Nat.lt_trichotomy i k with h3 | h3 | h3
  · have : r.1 < r1.1 := by
      have := List.pairwise_iff_getElem.1 h.rs i k (by simpa using hi) (by simp; omega) h3
      obtain ⟨q1, rfl⟩ := List.getElem?_eq_some_iff.1 hr
      obtain ⟨q2, rfl⟩ := List.getElem?_eq_some_iff.1 h1
      simpa using this
    rw [hw] at w0
    have := div_neg_of_neg_of_pos (show r.1 - r1.1 < 0 by linarith) hd
    linarith
  · subst h3
    rw [hr] at h1
    cases h1
    rw [hv] at e1
    cases e1
    rw [hw, sub_self, zero_div, zero_mul, add_zero]
  · rcases Nat.lt_or_eq_of_le (Nat.succ_le_of_lt h3) with h4 | h4
    · have : r2.1 < r.1 := by
        have := List.pairwise_iff_getElem.1 h.rs (k + 1) i (by simpa using hl2) (by simpa using hi) h4
        obtain ⟨q1, rfl⟩ := List.getElem?_eq_some_iff.1 hr
        obtain ⟨q2, rfl⟩ := List.getElem?_eq_some_iff.1 h2
        simpa using this
      rw [hw, div_le_one hd] at w1
      linarith
    · have h4' : k + 1 = i := h4
      subst h4'
      rw [hr] at h2
      cases h2
      rw [hv] at e2
      cases e2
      rw [hw, div_self hd.ne']
      ring

end Opm.Pvt
