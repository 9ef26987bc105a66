import Verif.Props.SatInit
/-!
# Saturation functions of a deck with two phases: values at the nodes, mobile and immobile saturations
-/

namespace Opm.SatFunc
open Opm Opm.Interp Opm.Pvt Opm.Blackoil Opm.Rock

theorem tab_node {xs ys : List Rat} {t : Tab} (h : mkTab none xs ys = .ok t) (hs : SatTable xs ys) {i : Nat} {x y : Rat} (hx : xs[i]? = some x) (hy : ys[i]? = some y) : t.eval x = .ok y := by
  rw [mkTab_eq h]
  exact interpolation_reproduces xs ys (Or.inl hs.inc) hs.two hs.len i x y hx hy

theorem tab_defined {xs ys : List Rat} {t : Tab} (h : mkTab none xs ys = .ok t) (hs : SatTable xs ys) (x : Rat) : ∃ v, t.eval x = .ok v := by
  rw [mkTab_eq h]
  obtain ⟨i, x1, x2, y1, y2, _, _, _, _, _, e, _⟩ := interpolation_derivative xs ys (Or.inl hs.inc) hs.two hs.len x
  exact ⟨_, e⟩

theorem tab_up {xs ys : List Rat} {t : Tab} (h : mkTab none xs ys = .ok t) (hs : SatTable xs ys) (hy : ys.Pairwise (· ≤ ·)) {a b va vb : Rat} (hab : a ≤ b) (ha : t.eval a = .ok va) (hb : t.eval b = .ok vb) : va ≤ vb := by
  rw [mkTab_eq h] at ha hb
  exact (interpolation_monotone xs ys hs.inc hs.two hs.len a b va vb hab ha hb).1 hy

theorem tab_down {xs ys : List Rat} {t : Tab} (h : mkTab none xs ys = .ok t) (hs : SatTable xs ys) (hy : ys.Pairwise (· ≥ ·)) {a b va vb : Rat} (hab : a ≤ b) (ha : t.eval a = .ok va) (hb : t.eval b = .ok vb) : vb ≤ va := by
  rw [mkTab_eq h] at ha hb
  exact (interpolation_monotone xs ys hs.inc hs.two hs.len a b va vb hab ha hb).2 hy

theorem tab_between {xs ys : List Rat} {t : Tab} (h : mkTab none xs ys = .ok t) (hs : SatTable xs ys) {i : Nat} {x x1 x2 y1 y2 : Rat} (hx1 : xs[i]? = some x1) (hx2 : xs[i + 1]? = some x2) (hy1 : ys[i]? = some y1) (hy2 : ys[i + 1]? = some y2)
    (hlo : x1 ≤ x) (hhi : x ≤ x2) : ∃ w v, 0 ≤ w ∧ w ≤ 1 ∧ x = (1 - w) * x1 + w * x2 ∧ v = (1 - w) * y1 + w * y2 ∧ t.eval x = .ok v := by
  rw [mkTab_eq h]
  obtain ⟨w, v, a, b, c, d, e, _⟩ := interpolation_between xs ys (Or.inl hs.inc) hs.len i x x1 x2 y1 y2 hx1 hx2 hy1 hy2 (le_trans (min_le_left _ _) hlo) (le_trans hhi (le_max_right _ _))
  exact ⟨w, v, a, b, c, d, e⟩

/-- Two phases with water, tables as in the deck: at the saturations of the table, the relative permeabilities and the capillary pressure are those of the table. -/
theorem water_oil_reproduces {k : Kind} {ts : List (List (List Rat))} {sgof : Option (List (List (List Rat)))} {table : Nat} {f : Funcs} (h : Funcs.init k none (some ts) sgof table (usageOf true false) = .ok f)
    {sw krw krow pcow : List Rat} {rest : List (List Rat)} (ht : ts[table]? = some (sw :: krw :: krow :: pcow :: rest)) (h1 : SatTable sw krw) (h2 : SatTable sw krow) (h3 : SatTable sw pcow)
    (i : Nat) (s a b c : Rat) (hs : sw[i]? = some s) (ha : krw[i]? = some a) (hb : krow[i]? = some b) (hc : pcow[i]? = some c) :
    f.krAt k [s, 1 - s] = .ok [a, b] ∧ f.pcAt [s, 1 - s] = .ok [c, 0] := by
  obtain ⟨hu, ts', sw', krw', krow', pcow', rest', co, mx, e, ht', W, _⟩ := init_water h
  cases e
  rw [ht] at ht'
  cases ht'
  rw [kr_water hu, pc_water hu, tab_node W.water h1 hs ha, bind_ok, show oilArg k s (1 - s) = s by cases k <;> simp [oilArg], tab_node W.oil h2 hs hb, bind_ok, tab_node W.cap h3 hs hc, bind_ok]
  exact ⟨rfl, rfl⟩

/-- Two phases with gas: at the saturations of the table, the values are those of the table. -/
theorem gas_oil_reproduces {k : Kind} {ts : List (List (List Rat))} {swof : Option (List (List (List Rat)))} {table : Nat} {f : Funcs} (h : Funcs.init k none swof (some ts) table (usageOf false true) = .ok f)
    {sg krg krog pcog : List Rat} {rest : List (List Rat)} (ht : ts[table]? = some (sg :: krg :: krog :: pcog :: rest)) (h1 : SatTable sg krg) (h2 : SatTable sg krog) (h3 : SatTable sg pcog)
    (i : Nat) (s a b c : Rat) (hs : sg[i]? = some s) (ha : krg[i]? = some a) (hb : krog[i]? = some b) (hc : pcog[i]? = some c) :
    f.krAt k [1 - s, s] = .ok [b, a] ∧ f.pcAt [1 - s, s] = .ok [0, c] := by
  obtain ⟨hu, ts', sw', krw', krow', pcow', rest', co, mx, e, ht', W, _⟩ := init_gas h
  cases e
  rw [ht] at ht'
  cases ht'
  rw [kr_gas hu, pc_gas hu, tab_node W.gas h1 hs ha, bind_ok, tab_node W.oil h2 hs hb, bind_ok, tab_node W.cap h3 hs hc, bind_ok]
  exact ⟨rfl, rfl⟩

/-- Two phases with water: with more water, there is no less mobility of water and no more of oil. -/
theorem water_oil_monotone {k : Kind} {ts : List (List (List Rat))} {sgof : Option (List (List (List Rat)))} {table : Nat} {f : Funcs} (h : Funcs.init k none (some ts) sgof table (usageOf true false) = .ok f)
    {sw krw krow pcow : List Rat} {rest : List (List Rat)} (ht : ts[table]? = some (sw :: krw :: krow :: pcow :: rest)) (h1 : SatTable sw krw) (h2 : SatTable sw krow) (m1 : krw.Pairwise (· ≤ ·)) (m2 : krow.Pairwise (· ≥ ·))
    {s s' : Rat} (hs : s ≤ s') : ∃ a b a' b', f.krAt k [s, 1 - s] = .ok [a, b] ∧ f.krAt k [s', 1 - s'] = .ok [a', b'] ∧ a ≤ a' ∧ b' ≤ b := by
  obtain ⟨hu, ts', sw', krw', krow', pcow', rest', co, mx, e, ht', W, _⟩ := init_water h
  cases e
  rw [ht] at ht'
  cases ht'
  obtain ⟨a, ha⟩ := tab_defined W.water h1 s
  obtain ⟨b, hb⟩ := tab_defined W.oil h2 s
  obtain ⟨a', ha'⟩ := tab_defined W.water h1 s'
  obtain ⟨b', hb'⟩ := tab_defined W.oil h2 s'
  rw [kr_water hu, kr_water hu, show oilArg k s (1 - s) = s by cases k <;> simp [oilArg], show oilArg k s' (1 - s') = s' by cases k <;> simp [oilArg], ha, hb, ha', hb']
  exact ⟨a, b, a', b', rfl, rfl, tab_up W.water h1 m1 hs ha ha', tab_down W.oil h2 m2 hs hb hb'⟩

/-! ### End points of the simple model -/

theorem scanUp_spec {sw krw krow : List Rat} {r : Option (Rat × Rat)} : ∀ {n i : Nat}, scanUp sw krw krow n i = .ok r →
    (r = none ∧ ∀ j, i ≤ j → j < i + n → ∃ v, krw[j]? = some v ∧ v ≤ 0) ∨
    (∃ j v a b, i ≤ j ∧ j < i + n ∧ krw[j]? = some v ∧ 0 < v ∧ (∀ j', i ≤ j' → j' < j → ∃ v, krw[j']? = some v ∧ v ≤ 0) ∧ sw[j - 1]? = some a ∧ krow[j - 1]? = some b ∧ r = some (a, b)) := by
  intro n
  induction n with
  | zero => intro i h; cases h; exact Or.inl ⟨rfl, by omega⟩
  | succ n ih =>
    intro i h
    unfold scanUp at h
    obtain ⟨v, hv, h⟩ := bind_eq_ok.1 h
    have hv := rd_eq_ok.1 hv
    split at h
    · next hp =>
      obtain ⟨a, ha, h⟩ := bind_eq_ok.1 h
      obtain ⟨b, hb, h⟩ := bind_eq_ok.1 h
      exact Or.inr ⟨i, v, a, b, le_refl _, by omega, hv, hp, by omega, rd_eq_ok.1 ha, rd_eq_ok.1 hb, (Except.ok.inj h).symm⟩
    · next hp =>
      have one : ∀ j', i ≤ j' → ¬ i + 1 ≤ j' → ∃ v, krw[j']? = some v ∧ v ≤ 0 := fun j' a b => by
        obtain rfl : j' = i := by omega
        exact ⟨v, hv, not_lt.1 hp⟩
      rcases ih h with ⟨e, q⟩ | ⟨j, v', a, b, q1, q2, q3, q4, q5, q6⟩
      · refine Or.inl ⟨e, fun j hj hl => ?_⟩
        by_cases c : i + 1 ≤ j
        · exact q j c (by omega)
        · exact one j hj c
      · refine Or.inr ⟨j, v', a, b, by omega, by omega, q3, q4, fun j' hj hl => ?_, q6⟩
        by_cases c : i + 1 ≤ j'
        · exact q5 j' c hl
        · exact one j' hj c

theorem scanDown_spec {sw krw krow : List Rat} {r : Option (Rat × Rat)} : ∀ {n : Nat}, scanDown sw krw krow n = .ok r →
    (r = none ∧ ∀ j, j < n → ∃ v, krow[j]? = some v ∧ v ≤ 0) ∨
    (∃ j v a b, j < n ∧ krow[j]? = some v ∧ 0 < v ∧ (∀ j', j < j' → j' < n → ∃ v, krow[j']? = some v ∧ v ≤ 0) ∧ sw[j + 1]? = some a ∧ krw[j + 1]? = some b ∧ r = some (a, b)) := by
  intro n
  induction n with
  | zero => intro h; cases h; exact Or.inl ⟨rfl, by omega⟩
  | succ n ih =>
    intro h
    unfold scanDown at h
    obtain ⟨v, hv, h⟩ := bind_eq_ok.1 h
    have hv := rd_eq_ok.1 hv
    split at h
    · next hp =>
      obtain ⟨a, ha, h⟩ := bind_eq_ok.1 h
      obtain ⟨b, hb, h⟩ := bind_eq_ok.1 h
      exact Or.inr ⟨n, v, a, b, by omega, hv, hp, by omega, rd_eq_ok.1 ha, rd_eq_ok.1 hb, (Except.ok.inj h).symm⟩
    · next hp =>
      have one : ∀ j', j' < n + 1 → ¬ j' < n → ∃ v, krow[j']? = some v ∧ v ≤ 0 := fun j' a b => by
        obtain rfl : j' = n := by omega
        exact ⟨v, hv, not_lt.1 hp⟩
      rcases ih h with ⟨e, q⟩ | ⟨j, v', a, b, q1, q2, q3, q4, q5⟩
      · refine Or.inl ⟨e, fun j hl => ?_⟩
        by_cases c : j < n
        · exact q j c
        · exact one j hl c
      · refine Or.inr ⟨j, v', a, b, by omega, q2, q3, fun j' hj hl => ?_, q5⟩
        by_cases c : j' < n
        · exact q4 j' hj c
        · exact one j' hl c

/-- The end points of the simple model are what their names say, for a table in which the relative permeability of water does not decrease and that of oil does not increase, and both are somewhere positive:
water does not move up to the critical saturation and moves above, oil moves below one minus its critical saturation in water and does not above;
`krorw` and `krwr` are the relative permeabilities of the other phase there, and the maxima are those at both ends of the table. -/
theorem critical_saturations {ts : List (List (List Rat))} {sgof : Option (List (List (List Rat)))} {table : Nat} {f : Funcs} (h : Funcs.init .simple none (some ts) sgof table (usageOf true false) = .ok f)
    {sw krw krow pcow : List Rat} {rest : List (List Rat)} (ht : ts[table]? = some (sw :: krw :: krow :: pcow :: rest)) (h1 : SatTable sw krw) (h2 : SatTable sw krow) (m1 : krw.Pairwise (· ≤ ·)) (m2 : krow.Pairwise (· ≥ ·))
    {swco swmax wmax omax : Rat} (lo : sw[0]? = some swco) (hi : sw[sw.length - 1]? = some swmax) (hw : krw[sw.length - 1]? = some wmax) (ho : krow[0]? = some omax) (hw0 : 0 < wmax) (ho0 : 0 < omax) :
    ∃ e, f.ends = some e ∧ e.krwmax = wmax ∧ e.kromax = omax ∧ swco ≤ e.swcr ∧ e.swcr < swmax ∧ 1 - swmax ≤ e.sowcr ∧ e.sowcr < 1 - swco ∧
      (∀ s, swco ≤ s → s ≤ e.swcr → f.krOf .simple 0 [s, 1 - s] = .ok 0) ∧ (∀ s, e.swcr < s → ∃ v, f.krOf .simple 0 [s, 1 - s] = .ok v ∧ 0 < v) ∧
      (∀ s, 1 - e.sowcr ≤ s → s ≤ swmax → f.krOf .simple 1 [s, 1 - s] = .ok 0) ∧ (∀ s, s < 1 - e.sowcr → ∃ v, f.krOf .simple 1 [s, 1 - s] = .ok v ∧ 0 < v) ∧
      f.krOf .simple 1 [e.swcr, 1 - e.swcr] = .ok e.krorw ∧ f.krOf .simple 0 [1 - e.sowcr, 1 - (1 - e.sowcr)] = .ok e.krwr := by
  obtain ⟨hu, ts', sw', krw', krow', pcow', rest', co, mx, e, ht', W, _⟩ := init_water h
  cases e
  rw [ht] at ht'
  cases ht'
  have l1 := h1.len
  have l2 := h2.len
  have n2 := h1.two
  obtain ⟨c1, c2⟩ := W.check rfl
  rw [l2] at c2
  have E := W.ends
  rw [if_pos rfl] at E
  obtain ⟨e, he, hf⟩ := E
  unfold endsOf at he
  obtain ⟨wb, hwb, he⟩ := bind_eq_ok.1 he
  obtain ⟨of, hof, he⟩ := bind_eq_ok.1 he
  obtain ⟨up, hup, he⟩ := bind_eq_ok.1 he
  obtain ⟨dn, hdn, he⟩ := bind_eq_ok.1 he
  have hwb := rd_eq_ok.1 hwb
  have hof := rd_eq_ok.1 hof
  rw [l1, hw] at hwb
  rw [ho] at hof
  cases hwb
  cases hof
  have kw : ∀ s, ∃ v b, f.krw.eval s = .ok v ∧ f.krow.eval s = .ok b ∧ f.krOf .simple 0 [s, 1 - s] = .ok v ∧ f.krOf .simple 1 [s, 1 - s] = .ok b := fun s => by
    obtain ⟨v, hv⟩ := tab_defined W.water h1 s
    obtain ⟨b, hb⟩ := tab_defined W.oil h2 s
    have hb' : f.krow.eval (oilArg .simple s (1 - s)) = .ok b := by rw [show oilArg .simple s (1 - s) = s by simp [oilArg]]; exact hb
    exact ⟨v, b, hv, hb, (krOf_water hu hv hb').1, (krOf_water hu hv hb').2⟩
  have xlt : ∀ {i j : Nat} {a b : Rat}, i < j → sw[i]? = some a → sw[j]? = some b → a < b := fun {i j a b} hij ha hb => by
    obtain ⟨qa, rfl⟩ := List.getElem?_eq_some_iff.1 ha
    obtain ⟨qb, rfl⟩ := List.getElem?_eq_some_iff.1 hb
    exact List.pairwise_iff_getElem.1 h1.inc i j qa qb hij
  have xle : ∀ {i j : Nat} {a b : Rat}, i ≤ j → sw[i]? = some a → sw[j]? = some b → a ≤ b := fun {i j a b} hij ha hb => by
    rcases Nat.eq_or_lt_of_le hij with rfl | q
    · rw [ha] at hb; cases hb; exact le_refl _
    · exact le_of_lt (xlt q ha hb)
  -- the first mobile water
  obtain ⟨j, v, a, b, j1, jn, hv, v0, before, ja, jb, rfl⟩ : ∃ j v a b, 1 ≤ j ∧ j < sw.length ∧ krw[j]? = some v ∧ 0 < v ∧ krw[j - 1]? = some 0 ∧ sw[j - 1]? = some a ∧ krow[j - 1]? = some b ∧ up = some (a, b) := by
    rcases scanUp_spec hup with ⟨_, q⟩ | ⟨j, v, a, b, q1, q2, q3, q4, q5, q6, q7, q8⟩
    · obtain ⟨v, hv, hv0⟩ := q (sw.length - 1) (by omega) (by omega)
      rw [hw] at hv
      cases hv
      exact absurd hw0 (not_lt.2 hv0)
    · refine ⟨j, v, a, b, q1, by omega, q3, q4, ?_, q6, q7, q8⟩
      by_cases z : j = 1
      · subst z; exact c1
      · obtain ⟨v', hv', n0⟩ := q5 (j - 1) (by omega) (by omega)
        have p0 : 0 ≤ v' := by
          obtain ⟨qa, ea⟩ := List.getElem?_eq_some_iff.1 c1
          obtain ⟨qb, rfl⟩ := List.getElem?_eq_some_iff.1 hv'
          have := List.pairwise_iff_getElem.1 m1 0 (j - 1) qa qb (by omega)
          rw [ea] at this
          exact this
        rw [hv', le_antisymm n0 p0]
  obtain ⟨j', v', a', b', jn', hv', v0', behind, ja', jb', rfl⟩ : ∃ j v a b, j + 1 < sw.length ∧ krow[j]? = some v ∧ 0 < v ∧ krow[j + 1]? = some 0 ∧ sw[j + 1]? = some a ∧ krw[j + 1]? = some b ∧ dn = some (a, b) := by
    rcases scanDown_spec hdn with ⟨_, q⟩ | ⟨j, v, a, b, q1, q3, q4, q5, q6, q7, q8⟩
    · obtain ⟨v, hv, hv0⟩ := q 0 (by omega)
      rw [ho] at hv
      cases hv
      exact absurd ho0 (not_lt.2 hv0)
    · refine ⟨j, v, a, b, by omega, q3, q4, ?_, q6, q7, q8⟩
      by_cases z : j + 1 = sw.length - 1
      · rw [z]; exact c2
      · obtain ⟨v', hv', n0⟩ := q5 (j + 1) (by omega) (by omega)
        have p0 : 0 ≤ v' := by
          obtain ⟨qa, ea⟩ := List.getElem?_eq_some_iff.1 c2
          obtain ⟨qb, rfl⟩ := List.getElem?_eq_some_iff.1 hv'
          have := List.pairwise_iff_getElem.1 m2 (j + 1) (sw.length - 1) qb qa (by omega)
          rw [ea] at this
          exact this
        rw [hv', le_antisymm n0 p0]
  have he := (Except.ok.inj he).symm
  dsimp only [Option.map_some, Option.getD_some] at he
  have jj : j - 1 + 1 = j := by omega
  obtain ⟨xj, hxj⟩ : ∃ x, sw[j]? = some x := ⟨_, List.getElem?_eq_getElem jn⟩
  obtain ⟨xj', hxj'⟩ : ∃ x, sw[j']? = some x := ⟨_, List.getElem?_eq_getElem (by omega)⟩
  subst he
  have oo : (1 : Rat) - (1 - a') = a' := by ring
  refine ⟨_, hf, rfl, rfl, xle (by omega) lo ja, xlt (by omega) ja hi, ?_, ?_, ?_, ?_, ?_, ?_, ?_, ?_⟩
  · have := xle (i := j' + 1) (j := sw.length - 1) (by omega) ja' hi
    dsimp only
    linarith
  · have := xlt (i := 0) (j := j' + 1) (by omega) lo ja'
    dsimp only
    linarith
  · intro s s1 s2
    obtain ⟨w, _, ew, _, ek, _⟩ := kw s
    have q1 := tab_up W.water h1 m1 s2 ew (tab_node W.water h1 ja before)
    have q2 := tab_up W.water h1 m1 s1 (tab_node W.water h1 lo c1) ew
    rw [ek, le_antisymm q1 q2]
  · intro s s1
    obtain ⟨w, _, ew, _, ek, _⟩ := kw s
    refine ⟨w, ek, ?_⟩
    dsimp only at s1
    by_cases hs : s ≤ xj
    · obtain ⟨t, v1, t0, t1, es, ev, ee⟩ := tab_between W.water h1 ja (by rw [jj]; exact hxj) before (by rw [jj]; exact hv) (le_of_lt s1) hs
      rw [ee] at ew
      cases ew
      have hlt := xlt (by omega) ja hxj
      have tp : 0 < t := by
        rcases lt_or_eq_of_le t0 with q | q
        · exact q
        · rw [← q] at es; linarith
      rw [ev]
      have := mul_pos tp v0
      linarith
    · exact lt_of_lt_of_le v0 (tab_up W.water h1 m1 (le_of_lt (not_le.1 hs)) (tab_node W.water h1 hxj hv) ew)
  · intro s s1 s2
    dsimp only at s1
    rw [oo] at s1
    obtain ⟨_, w, _, ew, _, ek⟩ := kw s
    have q1 := tab_down W.oil h2 m2 s1 (tab_node W.oil h2 ja' behind) ew
    have q2 := tab_down W.oil h2 m2 s2 ew (tab_node W.oil h2 hi c2)
    rw [ek, le_antisymm q1 q2]
  · intro s s1
    dsimp only at s1
    rw [oo] at s1
    obtain ⟨_, w, _, ew, _, ek⟩ := kw s
    refine ⟨w, ek, ?_⟩
    by_cases hs : xj' ≤ s
    · obtain ⟨t, v1, t0, t1, es, ev, ee⟩ := tab_between W.oil h2 hxj' ja' hv' behind hs (le_of_lt s1)
      rw [ee] at ew
      cases ew
      have tp : t < 1 := by
        rcases lt_or_eq_of_le t1 with q | q
        · exact q
        · rw [q] at es; linarith
      rw [ev]
      have := mul_pos (by linarith : 0 < 1 - t) v0'
      linarith
    · exact lt_of_lt_of_le v0' (tab_down W.oil h2 m2 (le_of_lt (not_le.1 hs)) ew (tab_node W.oil h2 hxj' hv'))
  · obtain ⟨_, w, _, ew, _, ek⟩ := kw a
    rw [tab_node W.oil h2 ja jb] at ew
    cases ew
    exact ek
  · dsimp only
    rw [oo]
    obtain ⟨w, _, ew, _, ek, _⟩ := kw a'
    rw [tab_node W.water h1 ja' jb'] at ew
    cases ew
    exact ek

end Opm.SatFunc
