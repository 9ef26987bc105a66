import Verif.Proofs.WellsGroupShare
/-! # Proofs for well groups: checking the constraints -/

namespace Opm.Groups
open Opm Wells

/-! ### Wells -/

theorem distr_at {np : Nat} {c : Controls} {w : Well} (h : CRep np c w) {k : Nat} {d : List Rat} (hk : w.slots[k]? = some d) {p : Nat} (hp : p < np) :
    rd c.distr (np * k + p) = .ok (d.getD p 0) := by
  obtain ⟨hkl, e⟩ := List.getElem?_eq_some_iff.1 hk
  have hr := h.rows d (by rw [← e]; exact List.getElem_mem hkl)
  have hpre : (w.slots.take k).flatten.length = np * k := by
    rw [length_flatten_rows (n := np) (fun r hr => h.rows r (List.mem_of_mem_take hr)), List.length_take, Nat.min_eq_left (by omega), mul_comm]
  apply rd_of_getElem?
  rw [h.distr, flatten_split hk, List.append_assoc, List.getElem?_append_right (by omega), hpre, Nat.add_sub_cancel_left, List.append_assoc,
    List.getElem?_append_left (by omega), List.getD_eq_getElem?_getD, List.getElem?_eq_getElem (by omega)]
  rfl

theorem rate_at {np n : Nat} {rates : List Rat} (hf : rates.length = np * n) {i p : Nat} (hi : i < n) (hp : p < np) :
    rdI rates ((np : Int) * (i : Int) + (p : Int)) = .ok (rateAt np rates i p) := by
  have hb : np * i + p < rates.length := by
    rw [hf]
    calc np * i + p < np * i + np := by omega
      _ = np * (i + 1) := by ring
      _ ≤ np * n := Nat.mul_le_mul_left _ hi
  rw [show ((np : Int) * (i : Int) + (p : Int)) = ((np * i + p : Nat) : Int) by push_cast; ring, rdI_natCast, rd_ok hb]
  simp [rateAt, List.getD_eq_getElem?_getD, List.getElem?_eq_getElem hb]

theorem controlRate_ok {np n : Nat} {c : Controls} {w : Well} (h : CRep np c w) {k : Nat} {d : List Rat} (hk : w.slots[k]? = some d)
    {rates : List Rat} (hf : rates.length = np * n) {i : Nat} (hi : i < n) :
    controlRate np c.distr rates k i = .ok (weighted np d rates i) := by
  unfold controlRate weighted
  obtain ⟨r, e, hr⟩ := loop_inv (n := np) (s := (0 : Rat)) (f := fun p s => do
      let x ← rd c.distr (np * k + p)
      let r ← rdI rates (np * (i : Int) + p)
      .ok (s + x * r)) (fun m (s : Rat) => s = ((List.range m).map (fun k => d.getD k 0 * rateAt np rates i k)).sum) (by simp) (by
    intro p s hp hs
    rw [distr_at h hk hp, bind_ok, rate_at hf hi hp, bind_ok]
    exact ⟨_, rfl, by rw [hs, List.range_succ, List.map_append, List.sum_append]; simp⟩)
  rw [e, hr]

theorem control_get {np : Nat} {c : Controls} {w : Well} (h : CRep np c w) {k : Nat} {x : CtrlType × Rat × List Rat} (hx : w.obs.controls[k]? = some x) :
    rd c.type k = .ok x.1 ∧ rd c.target k = .ok x.2.1 ∧ w.slots[k]? = some x.2.2 ∧ k < w.controls.length := by
  unfold Well.obs at hx
  simp only [List.getElem?_map, Option.map_eq_some_iff] at hx
  obtain ⟨⟨⟨t, g⟩, d⟩, hz, rfl⟩ := hx
  obtain ⟨h1, h2⟩ := List.getElem?_zip_eq_some.1 hz
  have hk := (List.getElem?_eq_some_iff.1 h1).1
  refine ⟨?_, ?_, h2, hk⟩
  · apply rd_of_getElem?
    have := congrArg (fun l => l[k]?) h.types
    simp only [List.getElem?_map, h1, Option.map_some] at this
    rw [List.getElem?_take_of_lt hk] at this
    exact this
  · apply rd_of_getElem?
    have := congrArg (fun l => l[k]?) h.targets
    simp only [List.getElem?_map, h1, Option.map_some] at this
    rw [List.getElem?_take_of_lt hk] at this
    exact this

theorem violated_ok {np n : Nat} {c : Controls} {w : Well} (h : CRep np c w) {k : Nat} {x : CtrlType × Rat × List Rat} (hx : w.obs.controls[k]? = some x)
    {bhp res surf : List Rat} (hb : bhp.length = n) (hr : res.length = np * n) (hs : surf.length = np * n) {i : Nat} (hi : i < n) :
    ∃ b, violated np bhp res surf w.type c i k = .ok b ∧ (b = true ↔ ¬Honours np bhp res surf w.type i x) := by
  obtain ⟨h1, h2, h3, -⟩ := control_get h hx
  unfold violated Honours
  rw [h1, bind_ok, h2, bind_ok]
  obtain ⟨t, g, d⟩ := x
  cases t
  · simp only
    rw [rdI_natCast, rd_ok (by omega), bind_ok]
    refine ⟨_, rfl, ?_⟩
    have hget : bhp.getD i 0 = bhp[i] := by simp [List.getD_eq_getElem?_getD, List.getElem?_eq_getElem (show i < bhp.length by omega)]
    cases w.type <;> simp [List.getElem?_eq_getElem (show i < bhp.length by omega)]
  · simp only
    rw [controlRate_ok h h3 hr hi, bind_ok]
    exact ⟨_, rfl, by rw [decide_eq_true_iff, not_le, gt_iff_lt]⟩
  · simp only
    rw [controlRate_ok h h3 hs hi, bind_ok]
    exact ⟨_, rfl, by simp⟩

/-- Control `k` is the first one, from `k0` on, that counts and is not honoured. -/
def FirstBad (np : Nat) (bhp res surf : List Rat) (o : Obs) (l : Leaf) (k0 k : Nat) : Prop :=
  k0 ≤ k ∧ (∃ x, o.controls[k]? = some x ∧ (k : Int) ≠ o.current ∧ (k : Int) ≠ l.gci ∧ ¬Honours np bhp res surf o.type l.self x) ∧
    ∀ j x, k0 ≤ j → j < k → o.controls[j]? = some x → (j : Int) ≠ o.current → (j : Int) ≠ l.gci → Honours np bhp res surf o.type l.self x

theorem obs_length {w : Well} (h : w.controls.length ≤ w.slots.length) : w.obs.controls.length = w.controls.length := by
  simp [Well.obs, h]

theorem firstViolated_ok {np n : Nat} {c : Controls} {w : Well} (h : CRep np c w) {bhp res surf : List Rat} (hb : bhp.length = n)
    (hr : res.length = np * n) (hs : surf.length = np * n) {l : Leaf} {i : Nat} (hl : l.self = i) (hi : i < n) :
    ∀ rem k, rem + k = w.controls.length →
      (firstViolated np bhp res surf w.type c i l.gci rem k = .ok none ∧
        ∀ j x, k ≤ j → w.obs.controls[j]? = some x → (j : Int) ≠ w.obs.current → (j : Int) ≠ l.gci → Honours np bhp res surf w.obs.type l.self x) ∨
      ∃ j, firstViolated np bhp res surf w.type c i l.gci rem k = .ok (some j) ∧ FirstBad np bhp res surf w.obs l k j := by
  intro rem
  induction rem with
  | zero =>
    intro k hk
    left
    refine ⟨by unfold firstViolated; rfl, fun j x hj hx => ?_⟩
    have h1 := (List.getElem?_eq_some_iff.1 hx).1
    rw [obs_length h.hs] at h1
    omega
  | succ rem ih =>
    intro k hk
    have hkl : k < w.obs.controls.length := by rw [obs_length h.hs]; omega
    have hget : w.obs.controls[k]? = some w.obs.controls[k] := List.getElem?_eq_getElem hkl
    have step : ((k : Int) = w.obs.current ∨ (k : Int) = l.gci ∨ Honours np bhp res surf w.obs.type l.self w.obs.controls[k]) →
        firstViolated np bhp res surf w.type c i l.gci (rem + 1) k = firstViolated np bhp res surf w.type c i l.gci rem (k + 1) →
        (firstViolated np bhp res surf w.type c i l.gci (rem + 1) k = .ok none ∧
          ∀ j x, k ≤ j → w.obs.controls[j]? = some x → (j : Int) ≠ w.obs.current → (j : Int) ≠ l.gci → Honours np bhp res surf w.obs.type l.self x) ∨
        ∃ j, firstViolated np bhp res surf w.type c i l.gci (rem + 1) k = .ok (some j) ∧ FirstBad np bhp res surf w.obs l k j := by
      intro hok heq
      have hthis : ∀ x, w.obs.controls[k]? = some x → (k : Int) ≠ w.obs.current → (k : Int) ≠ l.gci → Honours np bhp res surf w.obs.type l.self x := by
        intro x hx n1 n2
        rw [hget] at hx
        cases hx
        rcases hok with h | h | h
        · exact absurd h n1
        · exact absurd h n2
        · exact h
      rcases ih (k + 1) (by omega) with ⟨e, hall⟩ | ⟨j, e, hj⟩
      · left
        refine ⟨by rw [heq, e], fun j x hkj hx n1 n2 => ?_⟩
        rcases Nat.lt_or_ge k j with hlt | hge
        · exact hall j x hlt hx n1 n2
        · obtain rfl : j = k := by omega
          exact hthis x hx n1 n2
      · right
        refine ⟨j, by rw [heq, e], by have := hj.1; omega, hj.2.1, fun j' x hkj hlt hx n1 n2 => ?_⟩
        rcases Nat.lt_or_ge k j' with hlt' | hge
        · exact hj.2.2 j' x hlt' hlt hx n1 n2
        · obtain rfl : j' = k := by omega
          exact hthis x hx n1 n2
    by_cases hskip : (k : Int) = c.current ∨ (k : Int) = l.gci
    · apply step
      · rcases hskip with h' | h'
        · exact .inl (by rw [h', h.cur]; rfl)
        · exact .inr (.inl h')
      · rw [firstViolated, if_pos hskip]
    · obtain ⟨b, eb, hb'⟩ := violated_ok h hget hb hr hs hi
      cases b
      · apply step
        · right; right
          have : ¬¬Honours np bhp res surf w.type i w.obs.controls[k] := fun hn => by simpa using hb'.2 hn
          rw [hl]
          exact not_not.1 this
        · rw [firstViolated, if_neg hskip, eb, bind_ok, if_neg (by simp)]
      · right
        refine ⟨k, ?_, le_refl k, ⟨_, hget, ?_, ?_, ?_⟩, fun j x h1 h2 => by omega⟩
        · rw [firstViolated, if_neg hskip, eb, bind_ok, if_pos rfl]
        · intro he; exact hskip (.inl (by rw [he, h.cur]; rfl))
        · intro he; exact hskip (.inr he)
        · rw [hl]; exact hb'.1 rfl

/-! ### Sums of rates -/

/-- Three rates, zero where there is no phase. -/
def three (np : Nat) (f : Nat → Rat) : List Rat := [if 0 < np then f 0 else 0, if 1 < np then f 1 else 0, if 2 < np then f 2 else 0]

/-- The sums over the given wells. -/
def total (np : Nat) (res surf : List Rat) (types : Int → WellType) (ls : List Leaf) : Summed :=
  ⟨three np (groupRate np res types .injector ls), three np (groupRate np res types .producer ls),
    three np (groupRate np surf types .injector ls), three np (groupRate np surf types .producer ls)⟩

theorem groupRate_append (np : Nat) (rates : List Rat) (types : Int → WellType) (ty : WellType) (a b : List Leaf) (k : Nat) :
    groupRate np rates types ty (a ++ b) k = groupRate np rates types ty a k + groupRate np rates types ty b k := by
  simp [groupRate, List.filter_append]

theorem three_add (np : Nat) (f g h : Nat → Rat) (e : ∀ k, h k = f k + g k) : List.zipWith (· + ·) (three np f) (three np g) = three np h := by
  unfold three
  simp only [List.zipWith_cons_cons, List.zipWith_nil_right, e]
  congr 1
  · split <;> simp
  · congr 1
    · split <;> simp
    · congr 1
      split <;> simp

theorem total_add (np : Nat) (res surf : List Rat) (types : Int → WellType) (a b : List Leaf) :
    (total np res surf types a).add (total np res surf types b) = total np res surf types (a ++ b) := by
  unfold Summed.add total
  simp only
  congr 1 <;> exact three_add np _ _ _ (fun k => groupRate_append ..)

theorem total_nil (np : Nat) (res surf : List Rat) (types : Int → WellType) : total np res surf types [] = Summed.zero := by
  simp [total, three, groupRate, Summed.zero]

theorem copyRates_ok {np n : Nat} (hnp : np = 2 ∨ np = 3) {rates : List Rat} (hf : rates.length = np * n) {i : Nat} (hi : i < n) :
    copyRates np rates i = .ok (three np (rateAt np rates i)) := by
  unfold copyRates
  rcases hnp with rfl | rfl
  · have e0 := rate_at hf hi (p := 0) (by omega)
    have e1 := rate_at hf hi (p := 1) (by omega)
    simp only [loop_succ, loop_zero, bind_ok]
    rw [e0, bind_ok, wr_ok (by simp), bind_ok, e1, bind_ok, wr_ok (by simp)]
    simp [three]
  · have e0 := rate_at hf hi (p := 0) (by omega)
    have e1 := rate_at hf hi (p := 1) (by omega)
    have e2 := rate_at hf hi (p := 2) (by omega)
    simp only [loop_succ, loop_zero, bind_ok]
    rw [e0, bind_ok, wr_ok (by simp), bind_ok, e1, bind_ok, wr_ok (by simp), bind_ok, e2, bind_ok, wr_ok (by simp)]
    simp [three]

theorem wellRates_ok {np n : Nat} (hnp : np = 2 ∨ np = 3) {res surf : List Rat} (hr : res.length = np * n) (hs : surf.length = np * n)
    {types : Int → WellType} {l : Leaf} {i : Nat} (hl : l.self = i) (hi : i < n) :
    wellRates np res surf (types i) i = .ok (total np res surf types [l]) := by
  unfold wellRates
  rw [copyRates_ok hnp hr hi, bind_ok, copyRates_ok hnp hs hi, bind_ok]
  have hz : three np (fun _ => 0) = [0, 0, 0] := by simp [three]
  have h1 : ∀ rates, types i = .injector → groupRate np rates types .injector [l] = rateAt np rates i := fun rates h => by
    funext k; simp [groupRate, hl, h]
  have h2 : ∀ rates, types i = .producer → groupRate np rates types .producer [l] = rateAt np rates i := fun rates h => by
    funext k; simp [groupRate, hl, h]
  have h3 : ∀ rates, types i = .injector → groupRate np rates types .producer [l] = fun _ => 0 := fun rates h => by
    funext k; simp [groupRate, hl, h]
  have h4 : ∀ rates, types i = .producer → groupRate np rates types .injector [l] = fun _ => 0 := fun rates h => by
    funext k; simp [groupRate, hl, h]
  unfold total
  cases e : types i
  · rw [if_pos rfl, h1 _ e, h1 _ e, h3 _ e, h3 _ e, hz]; rfl
  · rw [if_neg (by simp), h2 _ e, h2 _ e, h4 _ e, h4 _ e, hz]; rfl

theorem phaseSum_three {np : Nat} (hnp : np = 2 ∨ np = 3) (f : Nat → Rat) : phaseSum np (three np f) 0 = .ok ((List.range np).map f).sum := by
  unfold phaseSum
  rcases hnp with rfl | rfl
  · simp only [loop_succ, loop_zero, bind_ok, three]
    rw [zero_add, zero_add, rdI_natCast, rdI_natCast, rd_ok (by simp), bind_ok, bind_ok, rd_ok (by simp), bind_ok]
    simp [List.range_succ]
  · simp only [loop_succ, loop_zero, bind_ok, three]
    rw [zero_add, zero_add, zero_add, rdI_natCast, rdI_natCast, rdI_natCast, rd_ok (by simp), bind_ok, bind_ok, rd_ok (by simp), bind_ok, bind_ok,
      rd_ok (by simp), bind_ok]
    simp [List.range_succ, add_assoc]

theorem three_get {np k : Nat} (f : Nat → Rat) (h3 : np ≤ 3) (hk : k < np) : rdI (three np f) (0 + (k : Int)) = .ok (f k) := by
  rw [zero_add, rdI_natCast]
  have : k = 0 ∨ k = 1 ∨ k = 2 := by omega
  rcases this with rfl | rfl | rfl <;> rw [rd_ok (by simp [three])] <;> simp [three, hk]

theorem PhaseUsage.Valid.num_cases {pu : PhaseUsage} (hu : pu.Valid) : pu.num = 2 ∨ pu.num = 3 := by
  have := hu.two; have := hu.three; omega

theorem prodRate_total {pu : PhaseUsage} (hu : pu.Valid) {res surf : List Rat} {types : Int → WellType} {ls : List Leaf} {m : ProdMode} (hm : m.isRate)
    (ha : m.Available pu) :
    prodRate pu (total pu.num res surf types ls).resProd (total pu.num res surf types ls).surfProd 0 m = .ok (groupProd pu res surf types ls m) := by
  unfold total groupProd
  rcases hm with rfl | rfl | rfl | rfl | rfl
  all_goals unfold ProdMode.Available at ha
  all_goals simp only [ProdMode.phases, reduceCtorEq, false_or, true_or, List.mem_cons, List.not_mem_nil, or_false, forall_eq_or_imp, forall_eq] at ha
  · simp only [prodRate, reduceCtorEq, if_false, ProdMode.phases]
    rw [three_get _ hu.three (pos_lt hu ha)]; simp [ha]
  · simp only [prodRate, reduceCtorEq, if_false, ProdMode.phases]
    rw [three_get _ hu.three (pos_lt hu ha)]; simp [ha]
  · simp only [prodRate, reduceCtorEq, if_false, ProdMode.phases]
    rw [three_get _ hu.three (pos_lt hu ha)]; simp [ha]
  · simp only [prodRate, reduceCtorEq, if_false, ProdMode.phases]
    rw [three_get _ hu.three (pos_lt hu ha.1), bind_ok, three_get _ hu.three (pos_lt hu ha.2), bind_ok]; simp [ha.1, ha.2]
  · simp only [prodRate, if_true]
    rw [phaseSum_three hu.num_cases]; rfl

theorem prodViolated_ok {pu : PhaseUsage} (hu : pu.Valid) {p : ProdSpec} (hsane : p.Sane pu) {res surf : List Rat} {types : Int → WellType} {ls : List Leaf} :
    ∀ ms : List ProdMode, (∀ m ∈ ms, m.isRate) →
    ∃ v, prodViolated pu p (total pu.num res surf types ls) ms = .ok v ∧
      (v = none ↔ ∀ m ∈ ms, p.mode ≠ m → 0 ≤ p.limit m → |groupProd pu res surf types ls m| ≤ p.limit m)
  | [], _ => ⟨none, rfl, by simp⟩
  | m :: ms, h => by
    obtain ⟨v, e, hv⟩ := prodViolated_ok hu hsane (res := res) (surf := surf) (types := types) (ls := ls) ms (fun m hm => h m (List.mem_cons_of_mem _ hm))
    have hm := h m (by simp)
    have ht : prodTarget p m = .ok (p.limit m) := by
      rcases hm with rfl | rfl | rfl | rfl | rfl <;> rfl
    unfold prodViolated
    simp only [List.forall_mem_cons]
    by_cases h1 : p.mode = m
    · rw [if_pos h1]
      exact ⟨v, e, by rw [hv]; simp [h1]⟩
    · rw [if_neg h1, ht, bind_ok]
      by_cases h2 : p.limit m ≥ 0
      · rw [if_pos h2, prodRate_total hu hm (hsane m hm h2), bind_ok]
        by_cases h3 : |groupProd pu res surf types ls m| > p.limit m
        · rw [if_pos h3]
          refine ⟨some m, rfl, ?_⟩
          simp only [reduceCtorEq, false_iff]
          intro hh
          exact absurd (hh.1 h1 h2) (not_le.2 h3)
        · rw [if_neg h3]
          exact ⟨v, e, by rw [hv]; exact ⟨fun hh => ⟨fun _ _ => not_lt.1 h3, hh⟩, fun hh => hh.2⟩⟩
      · rw [if_neg h2]
        exact ⟨v, e, by rw [hv]; exact ⟨fun hh => ⟨fun _ hx => absurd hx h2, hh⟩, fun hh => hh.2⟩⟩

theorem injViolated_ok {pu : PhaseUsage} (hu : pu.Valid) {i : InjSpec} {res surf : List Rat} {types : Int → WellType} {ls : List Leaf} :
    ∃ v, injViolated pu i (total pu.num res surf types ls) [.rate, .resv] = .ok v ∧
      (v = none ↔ (i.mode ≠ .rate → 0 ≤ i.surfaceMax → groupTotal pu.num surf types .injector ls ≤ i.surfaceMax) ∧
        (i.mode ≠ .resv → 0 ≤ i.reservoirMax → groupTotal pu.num res types .injector ls ≤ i.reservoirMax)) := by
  have e1 : injRate pu (total pu.num res surf types ls).resInj (total pu.num res surf types ls).surfInj 0 .rate = .ok (groupTotal pu.num surf types .injector ls) := by
    simp only [injRate, total]; rw [phaseSum_three hu.num_cases]; rfl
  have e2 : injRate pu (total pu.num res surf types ls).resInj (total pu.num res surf types ls).surfInj 0 .resv = .ok (groupTotal pu.num res types .injector ls) := by
    simp only [injRate, total]; rw [phaseSum_three hu.num_cases]; rfl
  have last : ∃ v, injViolated pu i (total pu.num res surf types ls) [.resv] = .ok v ∧
      (v = none ↔ (i.mode ≠ .resv → 0 ≤ i.reservoirMax → groupTotal pu.num res types .injector ls ≤ i.reservoirMax)) := by
    unfold injViolated
    by_cases h1 : i.mode = .resv
    · rw [if_pos h1]; exact ⟨none, rfl, by simp [h1]⟩
    · rw [if_neg h1, show injTarget i .resv = .ok i.reservoirMax from rfl, bind_ok]
      by_cases h2 : i.reservoirMax ≥ 0
      · rw [if_pos h2, e2, bind_ok]
        by_cases h3 : groupTotal pu.num res types .injector ls > i.reservoirMax
        · rw [if_pos h3]
          refine ⟨_, rfl, ?_⟩
          simp only [reduceCtorEq, false_iff]
          intro hh
          exact absurd (hh h1 h2) (not_le.2 h3)
        · rw [if_neg h3]
          exact ⟨none, rfl, by simp [not_lt.1 h3]⟩
      · rw [if_neg h2]
        exact ⟨none, rfl, by simpa using fun _ h => absurd h h2⟩
  obtain ⟨v, e, hv⟩ := last
  unfold injViolated
  by_cases h1 : i.mode = .rate
  · rw [if_pos h1]; exact ⟨v, e, by rw [hv]; simp [h1]⟩
  · rw [if_neg h1, show injTarget i .rate = .ok i.surfaceMax from rfl, bind_ok]
    by_cases h2 : i.surfaceMax ≥ 0
    · rw [if_pos h2, e1, bind_ok]
      by_cases h3 : groupTotal pu.num surf types .injector ls > i.surfaceMax
      · rw [if_pos h3]
        refine ⟨_, rfl, ?_⟩
        simp only [reduceCtorEq, false_iff]
        intro hh
        exact absurd (hh.1 h1 h2) (not_le.2 h3)
      · rw [if_neg h3]
        exact ⟨v, e, by rw [hv]; exact ⟨fun hh => ⟨fun _ _ => not_lt.1 h3, hh⟩, fun hh => hh.2⟩⟩
    · rw [if_neg h2]
      exact ⟨v, e, by rw [hv]; exact ⟨fun hh => ⟨fun _ hx => absurd hx h2, hh⟩, fun hh => hh.2⟩⟩

theorem groupConditionsMet_ok {J : Junk} {pu : PhaseUsage} (hu : pu.Valid) {n : String} {p : ProdSpec} {i : InjSpec} {cs : List Node} (hsane : p.Sane pu)
    {res surf : List Rat} {types : Int → WellType} {s : W} :
    (GroupOk pu res surf types (p, i, leavesAll cs) → groupConditionsMet J pu res surf n p i cs (total pu.num res surf types (leavesAll cs)) s =
      .ok (true, total pu.num res surf types (leavesAll cs), .group n p i cs, s)) ∧
    (¬GroupOk pu res surf types (p, i, leavesAll cs) → ∀ r, groupConditionsMet J pu res surf n p i cs (total pu.num res surf types (leavesAll cs)) s = .ok r →
      r.1 = false) := by
  obtain ⟨v, e, hv⟩ := injViolated_ok hu (i := i) (res := res) (surf := surf) (types := types) (ls := leavesAll cs)
  obtain ⟨u, e', hu'⟩ := prodViolated_ok hu hsane (res := res) (surf := surf) (types := types) (ls := leavesAll cs) [.orat, .wrat, .grat, .lrat, .resv]
    (by intro m hm; unfold ProdMode.isRate; simpa using hm)
  unfold groupConditionsMet
  rw [e, bind_ok]
  constructor
  · intro hg
    obtain rfl := hv.2 ⟨hg.surface, hg.reservoir⟩
    obtain rfl := hu'.2 (fun m hm => hg.prod m (by unfold ProdMode.isRate; simpa using hm))
    simp only
    rw [e', bind_ok]
    simp only
    rw [← total_nil pu.num res surf types, total_add]
    rfl
  · intro hg r hr
    cases v with
    | some m =>
      simp only at hr
      obtain ⟨q, -, hq⟩ := bind_eq_ok.1 hr
      cases hq; rfl
    | none =>
      simp only at hr
      rw [e', bind_ok] at hr
      cases u with
      | some m =>
        simp only at hr
        obtain ⟨q, -, hq⟩ := bind_eq_ok.1 hr
        cases hq; rfl
      | none =>
        exfalso
        apply hg
        have h1 := hv.1 rfl
        have h2 := hu'.1 rfl
        exact ⟨h1.1, h1.2, fun m hm => h2 m (by unfold ProdMode.isRate at hm; simpa using hm)⟩

/-! ### Trees -/

/-- Well `l` honours its constraints. -/
def LeafOk (np : Nat) (bhp res surf : List Rat) (ws : List Well) (l : Leaf) : Prop :=
  ∀ w, ws[l.self.toNat]? = some w → WellOk np bhp res surf w.obs l

/-- Well `l` is switched to the first constraint it does not honour; no other well changes. -/
def Switched (np : Nat) (bhp res surf : List Rat) (ws : List Well) (l : Leaf) (s' : W) : Prop :=
  ∃ (i : Nat) (w : Well) (k : Nat), l.self = i ∧ ws[i]? = some w ∧ FirstBad np bhp res surf w.obs l 0 k ∧ WRep np s' (ws.modify i (fun x => { x with current := k }))

theorem wellConditionsMet_ok {pu : PhaseUsage} (hu : pu.Valid) {bhp res surf : List Rat} {s : W} {ws : List Well} (h : WRep pu.num s ws)
    (hb : bhp.length = ws.length) (hr : res.length = pu.num * ws.length) (hs : surf.length = pu.num * ws.length) {l : Leaf} (hp : Placed ws [l]) :
    (LeafOk pu.num bhp res surf ws l → wellConditionsMet pu bhp res surf l.self l.gci s = .ok (true, total pu.num res surf (typeOf ws) [l], s)) ∧
    (¬LeafOk pu.num bhp res surf ws l → ∃ t s', wellConditionsMet pu bhp res surf l.self l.gci s = .ok (false, t, s') ∧ Switched pu.num bhp res surf ws l s') := by
  obtain ⟨i, hi, w, hw, -⟩ := hp.exist l (by simp)
  have hlt := (List.getElem?_eq_some_iff.1 hw).1
  obtain ⟨c, hc, hcr, -⟩ := h.ctrlAt i w hw
  have hty : typeOf ws (i : Int) = w.type := by simp [typeOf, hw]
  have hleaf : LeafOk pu.num bhp res surf ws l ↔ WellOk pu.num bhp res surf w.obs l := by
    unfold LeafOk
    rw [hi]
    simp [hw]
  rw [hleaf]
  unfold wellConditionsMet
  rw [hi, h.type_at hw, bind_ok, ← hty, wellRates_ok hu.num_cases hr hs hi hlt, bind_ok, rdI_natCast, rd_of_getElem? hc, bind_ok, hty, hcr.num]
  rcases firstViolated_ok hcr hb hr hs hi hlt w.controls.length 0 (by omega) with ⟨e, hall⟩ | ⟨j, e, hj⟩
  · rw [e, bind_ok]
    refine ⟨fun _ => rfl, fun hn => absurd ?_ hn⟩
    intro k x hx n1 n2
    exact hall k x (Nat.zero_le _) hx n1 n2
  · rw [e, bind_ok]
    constructor
    · intro hok
      obtain ⟨x, hx, n1, n2, n3⟩ := hj.2.1
      exact absurd (hok j x hx n1 n2) n3
    · intro _
      obtain ⟨x, hx, -⟩ := hj.2.1
      obtain ⟨-, -, -, hjl⟩ := control_get hcr hx
      obtain ⟨s', e', r'⟩ := h.setCurrent i w hw j (by omega)
      simp only
      rw [e', bind_ok]
      exact ⟨_, _, rfl, i, w, j, hi, hw, hj, r'⟩

/-- All limits hold. -/
def AllOk (pu : PhaseUsage) (bhp res surf : List Rat) (ws : List Well) (ls : List Leaf) (gs : List (ProdSpec × InjSpec × List Leaf)) : Prop :=
  (∀ l ∈ ls, LeafOk pu.num bhp res surf ws l) ∧ ∀ g ∈ gs, GroupOk pu res surf (typeOf ws) g

mutual
theorem conditionsMet_ok {J : Junk} {pu : PhaseUsage} (hu : pu.Valid) {bhp res surf : List Rat} {s : W} {ws : List Well} (h : WRep pu.num s ws)
    (hb : bhp.length = ws.length) (hr : res.length = pu.num * ws.length) (hs : surf.length = pu.num * ws.length) : ∀ (n : Node),
    Placed ws n.leaves → (∀ g ∈ n.groups, g.1.Sane pu) →
    (AllOk pu bhp res surf ws n.leaves n.groups → n.conditionsMet J pu bhp res surf s = .ok (true, total pu.num res surf (typeOf ws) n.leaves, n, s)) ∧
    (¬AllOk pu bhp res surf ws n.leaves n.groups → ∀ r, n.conditionsMet J pu bhp res surf s = .ok r → r.1 = false) ∧
    ((∀ g ∈ n.groups, GroupOk pu res surf (typeOf ws) g) → ∀ a l b, n.leaves = a ++ l :: b → (∀ x ∈ a, LeafOk pu.num bhp res surf ws x) →
      ¬LeafOk pu.num bhp res surf ws l → ∃ t s', n.conditionsMet J pu bhp res surf s = .ok (false, t, n, s') ∧ Switched pu.num bhp res surf ws l s')
  | .well n p i self gci, hp, _ => by
    simp only [Node.leaves, Node.groups] at hp ⊢
    obtain ⟨h1, h2⟩ := wellConditionsMet_ok hu h hb hr hs hp
    unfold Node.conditionsMet
    refine ⟨?_, ?_, ?_⟩
    · intro hok
      rw [h1 (hok.1 _ (by simp)), bind_ok]
    · intro hn r hr
      have : ¬LeafOk pu.num bhp res surf ws ⟨p, i, self, gci⟩ := fun hl => hn ⟨by simpa using hl, by simp⟩
      obtain ⟨t, s', e, -⟩ := h2 this
      rw [e, bind_ok] at hr
      cases hr; rfl
    · intro _ a l b hab ha hl
      cases a with
      | nil =>
        simp only [List.nil_append, List.cons.injEq] at hab
        obtain ⟨rfl, -⟩ := hab
        obtain ⟨t, s', e, sw⟩ := h2 hl
        rw [e, bind_ok]
        exact ⟨_, _, rfl, sw⟩
      | cons x a => simp at hab
  | .group n p i cs, hp, hsane => by
    simp only [Node.leaves, Node.groups] at hp hsane ⊢
    obtain ⟨h1, h2, h3⟩ := conditionsMetAll_ok (J := J) hu h hb hr hs cs [] (by simpa using hp) (fun g hg => hsane g (List.mem_cons_of_mem _ hg))
    obtain ⟨g1, g2⟩ := groupConditionsMet_ok (J := J) hu (n := n) (p := p) (i := i) (cs := cs) (hsane (p, i, leavesAll cs) (by simp)) (res := res) (surf := surf)
      (types := typeOf ws) (s := s)
    rw [total_nil, List.nil_append] at h1
    rw [total_nil] at h2 h3
    unfold Node.conditionsMet
    refine ⟨?_, ?_, ?_⟩
    · intro hok
      rw [h1 ⟨hok.1, fun g hg => hok.2 g (List.mem_cons_of_mem _ hg)⟩, bind_ok]
      simp only [Bool.not_true, Bool.false_eq_true, if_false]
      exact g1 (hok.2 _ (by simp))
    · intro hn r hr
      by_cases hch : AllOk pu bhp res surf ws (leavesAll cs) (groupsAll cs)
      · rw [h1 hch, bind_ok] at hr
        simp only [Bool.not_true, Bool.false_eq_true, if_false] at hr
        refine g2 (fun hg => hn ⟨hch.1, ?_⟩) r hr
        intro g hgm
        rcases List.mem_cons.1 hgm with rfl | hgm
        · exact hg
        · exact hch.2 g hgm
      · obtain ⟨q, hq, hr⟩ := bind_eq_ok.1 hr
        have := h2 hch q hq
        rw [this] at hr
        simp only [Bool.not_false, if_true] at hr
        cases hr; rfl
    · intro hg a l b hab ha hl
      obtain ⟨t, s', e, sw⟩ := h3 (fun g hg' => hg g (List.mem_cons_of_mem _ hg')) a l b hab ha hl
      rw [e, bind_ok]
      exact ⟨_, _, rfl, sw⟩
theorem conditionsMetAll_ok {J : Junk} {pu : PhaseUsage} (hu : pu.Valid) {bhp res surf : List Rat} {s : W} {ws : List Well} (h : WRep pu.num s ws)
    (hb : bhp.length = ws.length) (hr : res.length = pu.num * ws.length) (hs : surf.length = pu.num * ws.length) : ∀ (cs : List Node) (before : List Leaf),
    Placed ws (leavesAll cs) → (∀ g ∈ groupsAll cs, g.1.Sane pu) →
    (AllOk pu bhp res surf ws (leavesAll cs) (groupsAll cs) → conditionsMetAll J pu bhp res surf (total pu.num res surf (typeOf ws) before) cs s =
      .ok (true, total pu.num res surf (typeOf ws) (before ++ leavesAll cs), cs, s)) ∧
    (¬AllOk pu bhp res surf ws (leavesAll cs) (groupsAll cs) → ∀ r,
      conditionsMetAll J pu bhp res surf (total pu.num res surf (typeOf ws) before) cs s = .ok r → r.1 = false) ∧
    ((∀ g ∈ groupsAll cs, GroupOk pu res surf (typeOf ws) g) → ∀ a l b, leavesAll cs = a ++ l :: b → (∀ x ∈ a, LeafOk pu.num bhp res surf ws x) →
      ¬LeafOk pu.num bhp res surf ws l → ∃ t s', conditionsMetAll J pu bhp res surf (total pu.num res surf (typeOf ws) before) cs s = .ok (false, t, cs, s') ∧
        Switched pu.num bhp res surf ws l s')
  | [], before, _, _ => by
    refine ⟨?_, ?_, ?_⟩
    · intro _; simp [conditionsMetAll, leavesAll]
    · intro hn; exact absurd ⟨by simp [leavesAll], by simp [groupsAll]⟩ hn
    · intro _ a l b hab
      simp [leavesAll] at hab
  | c :: cs, before, hp, hsane => by
    simp only [leavesAll, groupsAll] at hp hsane ⊢
    obtain ⟨c1, c2, c3⟩ := conditionsMet_ok (J := J) hu h hb hr hs c hp.left (fun g hg => hsane g (List.mem_append_left _ hg))
    obtain ⟨h1, h2, h3⟩ := conditionsMetAll_ok (J := J) hu h hb hr hs cs (before ++ c.leaves) hp.right (fun g hg => hsane g (List.mem_append_right _ hg))
    unfold conditionsMetAll
    refine ⟨?_, ?_, ?_⟩
    · intro hok
      rw [c1 ⟨fun l hl => hok.1 l (List.mem_append_left _ hl), fun g hg => hok.2 g (List.mem_append_left _ hg)⟩, bind_ok]
      simp only [Bool.not_true, Bool.false_eq_true, if_false]
      rw [total_add, h1 ⟨fun l hl => hok.1 l (List.mem_append_right _ hl), fun g hg => hok.2 g (List.mem_append_right _ hg)⟩, bind_ok, List.append_assoc]
    · intro hn r hr
      by_cases hch : AllOk pu bhp res surf ws c.leaves c.groups
      · rw [c1 hch, bind_ok] at hr
        simp only [Bool.not_true, Bool.false_eq_true, if_false] at hr
        rw [total_add] at hr
        obtain ⟨q, hq, hr⟩ := bind_eq_ok.1 hr
        cases hr
        refine h2 (fun hok => hn ?_) q hq
        constructor
        · intro l hl
          rcases List.mem_append.1 hl with hl | hl
          · exact hch.1 l hl
          · exact hok.1 l hl
        · intro l hl
          rcases List.mem_append.1 hl with hl | hl
          · exact hch.2 l hl
          · exact hok.2 l hl
      · obtain ⟨q, hq, hr⟩ := bind_eq_ok.1 hr
        have := c2 hch q hq
        rw [this] at hr
        simp only [Bool.not_false, if_true] at hr
        cases hr; rfl
    · intro hg a l b hab ha hl
      rcases List.append_eq_append_iff.1 hab with ⟨a', e1, e2⟩ | ⟨b', e1, e2⟩
      · subst e1
        have hok : AllOk pu bhp res surf ws c.leaves c.groups :=
          ⟨fun x hx => ha x (List.mem_append_left _ hx), fun g hg' => hg g (List.mem_append_left _ hg')⟩
        rw [c1 hok, bind_ok]
        simp only [Bool.not_true, Bool.false_eq_true, if_false]
        obtain ⟨t, s', e, sw⟩ := h3 (fun g hg' => hg g (List.mem_append_right _ hg')) a' l b e2 (fun x hx => ha x (List.mem_append_right _ hx)) hl
        rw [total_add, e, bind_ok]
        exact ⟨_, _, rfl, sw⟩
      · cases b' with
        | nil =>
          simp only [List.append_nil, List.nil_append] at e1 e2
          have hok : AllOk pu bhp res surf ws c.leaves c.groups :=
            ⟨fun x hx => ha x (by rw [← e1]; exact hx), fun g hg' => hg g (List.mem_append_left _ hg')⟩
          rw [c1 hok, bind_ok]
          simp only [Bool.not_true, Bool.false_eq_true, if_false]
          obtain ⟨t, s', e, sw⟩ := h3 (fun g hg' => hg g (List.mem_append_right _ hg')) [] l b e2.symm (by simp) hl
          rw [total_add, e, bind_ok]
          exact ⟨_, _, rfl, sw⟩
        | cons x b' =>
          simp only [List.cons_append, List.cons.injEq] at e2
          obtain ⟨rfl, -⟩ := e2
          obtain ⟨t, s', e, sw⟩ := c3 (fun g hg' => hg g (List.mem_append_left _ hg')) a l b' e1 ha hl
          rw [e, bind_ok]
          exact ⟨_, _, rfl, sw⟩
end

end Opm.Groups
