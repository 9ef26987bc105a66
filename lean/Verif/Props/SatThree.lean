import Verif.Props.SatEnds
/-!
# Saturation functions with three phases: where they are those of two phases
-/

namespace Opm.SatFunc
open Opm Opm.Interp Opm.Pvt Opm.Blackoil Opm.Rock

theorem clip_eq (x : Rat) : clip x = max x 0 := by
  unfold clip
  split
  · next h => exact (max_eq_right (le_of_lt h)).symm
  · next h => exact (max_eq_left (not_lt.1 h)).symm

/-- A deck with three phases contains one with water and oil: its functions are the same ones. -/
theorem water_oil_part {k : Kind} {u : Option (Sampling × Int)} {swof sgof : Option (List (List (List Rat)))} {table : Nat} {f : Funcs} (h : Funcs.init k u swof sgof table (usageOf true true) = .ok f) :
    ∃ fw, Funcs.init k u swof sgof table (usageOf true false) = .ok fw ∧ fw.krw = f.krw ∧ fw.krow = f.krow ∧ fw.pcow = f.pcow := by
  obtain ⟨hu, ts, sw, krw, krow, pcow, rest, co, mx, rfl, ht, W, _⟩ := init_water h
  have E : ∃ e, setEnds k sw krw krow co mx = .ok e := by
    have := W.ends
    unfold setEnds
    cases k with
    | simple =>
      rw [if_pos rfl] at this
      obtain ⟨e, he, _⟩ := this
      exact ⟨some e, by rw [he, bind_ok]⟩
    | gwseg => exact ⟨none, rfl⟩
    | stone2 => exact ⟨none, rfl⟩
  have C : checkEnds k krw krow = .ok () := by
    unfold checkEnds
    cases k with
    | simple =>
      obtain ⟨a, b⟩ := W.check rfl
      dsimp only
      unfold front back
      rw [rd_of_getElem? a, bind_ok, rd_of_getElem? b, bind_ok, if_neg (by simp)]
    | gwseg => rfl
    | stone2 => rfl
  obtain ⟨e, he⟩ := E
  refine ⟨{ usage := usageOf true false, krw := f.krw, krow := f.krow, pcow := f.pcow, krocw := f.krocw, smin := [co, 1 - mx, 0], smax := [mx, 1 - co, 0], ends := e }, ?_, rfl, rfl, rfl⟩
  unfold Funcs.init maybeWater initWater
  dsimp only
  unfold back
  rw [show rd (usageOf true false).used Aqua = .ok true from rfl, bind_ok, if_pos rfl, rd_of_getElem? ht, bind_ok, show rd (sw :: krw :: krow :: pcow :: rest) 0 = .ok sw from rfl, bind_ok, show rd (sw :: krw :: krow :: pcow :: rest) 1 = .ok krw from rfl,
    bind_ok, show rd (sw :: krw :: krow :: pcow :: rest) 2 = .ok krow from rfl, bind_ok, show rd (sw :: krw :: krow :: pcow :: rest) 3 = .ok pcow from rfl, bind_ok, C, bind_ok, W.water, bind_ok, W.oil, bind_ok, W.cap, bind_ok,
    rd_of_getElem? W.connate, bind_ok, rd_of_getElem? W.lo, bind_ok, rd_of_getElem? W.hi, bind_ok, show rd (usageOf true false).pos Aqua = .ok 0 from rfl, bind_ok]
  rw [show wr ([0, 0, 0] : List Rat) 0 co = .ok [co, 0, 0] from rfl, bind_ok, show wr ([0, 0, 0] : List Rat) 0 mx = .ok [mx, 0, 0] from rfl, bind_ok, he]
  rfl

/-- Capillary pressures with water: the derivative gives the slopes in all directions. -/
theorem water_pc_derivative {f : Funcs} (hu : f.usage = usageOf true false) {sw so vw vo : Rat} (h1 : Smooth f.pcow sw) :
    ∃ v m, f.pcAt [sw, so] = .ok v ∧ f.dpcAt [sw, so] = .ok (v, m) ∧ ∀ i, i < 2 → SlopeAt (fun t => f.pcOf i (along [sw, so] [vw, vo] t)) 0 (rowTimes 2 m [vw, vo] i) := by
  obtain ⟨d1, e1, s1⟩ := h1
  obtain ⟨a, ha⟩ := s1.value
  obtain ⟨r0, r1⟩ := rowTimes_two d1 0 0 0 vw vo
  have L := s1.line vw
  refine ⟨[a, 0], [d1, 0, 0, 0], by rw [pc_water hu, ha]; rfl, by rw [dpc_water hu, ha, bind_ok, e1]; rfl, all_two ?_ ?_⟩
  · rw [r0]
    refine (L.as (by ring)).congr one_pos fun t _ => ?_
    show Funcs.pcOf f 0 [sw + (0 + t) * vw, so + (0 + t) * vo] = _
    unfold Funcs.pcOf
    rw [pc_water hu, bind_assoc']
    exact bind_pure' _
  · rw [r1]
    obtain ⟨δ, p, q⟩ := L.defined
    refine ((slope_const (0 : Rat) 0).as (by ring)).congr p fun t ht => ?_
    obtain ⟨w, hw⟩ := q t ht
    show Funcs.pcOf f 1 [sw + (0 + t) * vw, so + (0 + t) * vo] = _
    unfold Funcs.pcOf
    rw [pc_water hu, hw]
    rfl

/-- Capillary pressures with gas. -/
theorem gas_pc_derivative {f : Funcs} (hu : f.usage = usageOf false true) {so sg vo vg : Rat} (h1 : Smooth f.pcog sg) :
    ∃ v m, f.pcAt [so, sg] = .ok v ∧ f.dpcAt [so, sg] = .ok (v, m) ∧ ∀ i, i < 2 → SlopeAt (fun t => f.pcOf i (along [so, sg] [vo, vg] t)) 0 (rowTimes 2 m [vo, vg] i) := by
  obtain ⟨d1, e1, s1⟩ := h1
  obtain ⟨a, ha⟩ := s1.value
  obtain ⟨r0, r1⟩ := rowTimes_two 0 0 0 d1 vo vg
  have L := s1.line vg
  refine ⟨[0, a], [0, 0, 0, d1], by rw [pc_gas hu, ha]; rfl, by rw [dpc_gas hu, ha, bind_ok, e1]; rfl, all_two ?_ ?_⟩
  · rw [r0]
    obtain ⟨δ, p, q⟩ := L.defined
    refine ((slope_const (0 : Rat) 0).as (by ring)).congr p fun t ht => ?_
    obtain ⟨w, hw⟩ := q t ht
    show Funcs.pcOf f 0 [so + (0 + t) * vo, sg + (0 + t) * vg] = _
    unfold Funcs.pcOf
    rw [pc_gas hu, hw]
    rfl
  · rw [r1]
    refine (L.as (by ring)).congr one_pos fun t _ => ?_
    show Funcs.pcOf f 1 [so + (0 + t) * vo, sg + (0 + t) * vg] = _
    unfold Funcs.pcOf
    rw [pc_gas hu, bind_assoc']
    exact bind_pure' _

/-- Capillary pressures with three phases. -/
theorem three_pc_derivative {f : Funcs} (hu : f.usage = usageOf true true) {sw so sg vw vo vg : Rat} (h1 : Smooth f.pcow sw) (h2 : Smooth f.pcog sg) :
    ∃ v m, f.pcAt [sw, so, sg] = .ok v ∧ f.dpcAt [sw, so, sg] = .ok (v, m) ∧ ∀ i, i < 3 → SlopeAt (fun t => f.pcOf i (along [sw, so, sg] [vw, vo, vg] t)) 0 (rowTimes 3 m [vw, vo, vg] i) := by
  obtain ⟨d1, e1, s1⟩ := h1
  obtain ⟨d2, e2, s2⟩ := h2
  obtain ⟨a, ha⟩ := s1.value
  obtain ⟨b, hb⟩ := s2.value
  obtain ⟨r0, r1, r2⟩ := rowTimes_three d1 0 0 0 0 0 0 0 d2 vw vo vg
  have L1 := s1.line vw
  have L2 := s2.line vg
  refine ⟨[a, 0, b], [d1, 0, 0, 0, 0, 0, 0, 0, d2], by rw [pc_three hu, ha, bind_ok, hb]; rfl, by rw [dpc_three hu, ha, bind_ok, e1, bind_ok, hb, bind_ok, e2]; rfl, all_three ?_ ?_ ?_⟩
  · rw [r0]
    obtain ⟨δ, p, q⟩ := L2.defined
    refine (L1.as (by ring)).congr p fun t ht => ?_
    obtain ⟨w, hw⟩ := q t ht
    show Funcs.pcOf f 0 [sw + (0 + t) * vw, so + (0 + t) * vo, sg + (0 + t) * vg] = _
    unfold Funcs.pcOf
    rw [pc_three hu, hw, bind_assoc']
    exact bind_pure' _
  · rw [r1]
    obtain ⟨δ1, p1, q1⟩ := L1.defined
    obtain ⟨δ2, p2, q2⟩ := L2.defined
    refine ((slope_const (0 : Rat) 0).as (by ring)).congr (lt_min p1 p2) fun t ht => ?_
    obtain ⟨w1, hw1⟩ := q1 t (lt_of_lt_of_le ht (min_le_left _ _))
    obtain ⟨w2, hw2⟩ := q2 t (lt_of_lt_of_le ht (min_le_right _ _))
    show Funcs.pcOf f 1 [sw + (0 + t) * vw, so + (0 + t) * vo, sg + (0 + t) * vg] = _
    unfold Funcs.pcOf
    rw [pc_three hu, hw1, bind_ok, hw2]
    rfl
  · rw [r2]
    obtain ⟨δ, p, q⟩ := L1.defined
    refine (L2.as (by ring)).congr p fun t ht => ?_
    obtain ⟨w, hw⟩ := q t ht
    show Funcs.pcOf f 2 [sw + (0 + t) * vw, so + (0 + t) * vo, sg + (0 + t) * vg] = _
    unfold Funcs.pcOf
    rw [pc_three hu, hw, bind_ok, bind_assoc']
    exact bind_pure' _

/-- Capillary pressures of three phases at saturations of the tables are those of the tables. -/
theorem three_pc_reproduces {k : Kind} {ts ts' : List (List (List Rat))} {table : Nat} {f : Funcs} (h : Funcs.init k none (some ts) (some ts') table (usageOf true true) = .ok f)
    {sw krw krow pcow sg krg krog pcog : List Rat} {rest rest' : List (List Rat)} (ht : ts[table]? = some (sw :: krw :: krow :: pcow :: rest)) (ht' : ts'[table]? = some (sg :: krg :: krog :: pcog :: rest'))
    (h1 : SatTable sw pcow) (h2 : SatTable sg pcog) (i j : Nat) (s g a b so : Rat) (hs : sw[i]? = some s) (hg : sg[j]? = some g) (ha : pcow[i]? = some a) (hb : pcog[j]? = some b) :
    f.pcAt [s, so, g] = .ok [a, 0, b] := by
  obtain ⟨hu, _, _, _, _, _, _, co, mx, e, q, W, _, _, G⟩ := init_water h
  cases e
  rw [ht] at q
  cases q
  obtain ⟨_, _, _, _, _, _, lo, hi, e, q, G, _⟩ := G rfl
  cases e
  rw [ht'] at q
  cases q
  rw [pc_three hu, tab_node W.cap h1 hs ha, bind_ok, tab_node G.cap h2 hg hb, bind_ok]

/-- The simple model: the relative permeability of water is that of the table of water at its saturation, the one of gas that of the table of gas at its saturation,
and the one of oil that of the table of water at the joint saturation of water and gas, but not negative. -/
theorem simple_reproduces {ts ts' : List (List (List Rat))} {table : Nat} {f : Funcs} (h : Funcs.init .simple none (some ts) (some ts') table (usageOf true true) = .ok f)
    {sw krw krow pcow sg krg krog pcog : List Rat} {rest rest' : List (List Rat)} (ht : ts[table]? = some (sw :: krw :: krow :: pcow :: rest)) (ht' : ts'[table]? = some (sg :: krg :: krog :: pcog :: rest'))
    (h1 : SatTable sw krw) (h2 : SatTable sw krow) (h3 : SatTable sg krg) (s so g : Rat) :
    (∀ (i : Nat) a, sw[i]? = some s → krw[i]? = some a → f.krOf .simple 0 [s, so, g] = .ok a) ∧
    (∀ (i : Nat) b, sw[i]? = some (s + g) → krow[i]? = some b → f.krOf .simple 1 [s, so, g] = .ok (max b 0)) ∧
    (∀ (i : Nat) c, sg[i]? = some g → krg[i]? = some c → f.krOf .simple 2 [s, so, g] = .ok c) := by
  obtain ⟨hu, _, _, _, _, _, _, co, mx, e, q, W, _, _, G⟩ := init_water h
  cases e
  rw [ht] at q
  cases q
  obtain ⟨_, _, _, _, _, _, lo, hi, e, q, G, _⟩ := G rfl
  cases e
  rw [ht'] at q
  cases q
  obtain ⟨a, ha⟩ := tab_defined W.water h1 s
  obtain ⟨b, hb⟩ := tab_defined W.oil h2 (s + g)
  obtain ⟨c, hc⟩ := tab_defined G.gas h3 g
  obtain ⟨k0, k1, k2⟩ := krOf_three hu (k := .simple) (sw := s) (so := so) (sg := g) (a := a) (b := clip b) (c := c) (by unfold Funcs.kr3; dsimp only; rw [ha, bind_ok, hc, bind_ok, hb, bind_ok])
  refine ⟨fun i a' hs hv => ?_, fun i b' hs hv => ?_, fun i c' hs hv => ?_⟩
  · rw [tab_node W.water h1 hs hv] at ha; cases ha; exact k0
  · rw [tab_node W.oil h2 hs hv] at hb; cases hb; rw [k1, clip_eq]
  · rw [tab_node G.gas h3 hs hv] at hc; cases hc; exact k2

/-- The model of Stone: without gas, the relative permeabilities are those of water and oil (but oil's is not negative), if the relative permeability of gas is zero there and that of oil beside gas begins with the one at connate water. -/
theorem stone2_without_gas {ts ts' : List (List (List Rat))} {table : Nat} {f fw : Funcs} (h : Funcs.init .stone2 none (some ts) (some ts') table (usageOf true true) = .ok f)
    (hw : Funcs.init .stone2 none (some ts) none table (usageOf true false) = .ok fw)
    {sg krg krog pcog : List Rat} {rest' : List (List Rat)} (ht' : ts'[table]? = some (sg :: krg :: krog :: pcog :: rest')) (h3 : SatTable sg krg) (h4 : SatTable sg krog)
    {ko : Rat} (g0 : sg[0]? = some 0) (k0 : krg[0]? = some 0) (hk : krog[0]? = some ko) (hf : ko ≠ 0) (hc : ∀ t, ts[table]? = some t → (t.getD 2 [])[0]? = some ko)
    {sw a b : Rat} (hs : fw.krAt .stone2 [sw, 1 - sw] = .ok [a, b]) (so : Rat) : f.krAt .stone2 [sw, so, 0] = .ok [a, max b 0, 0] := by
  obtain ⟨hu, _, _, _, _, _, _, co, mx, e, q, W, _, _, G⟩ := init_water h
  cases e
  obtain ⟨hu', _, _, _, _, _, _, co', mx', e, q', W', _⟩ := init_water hw
  cases e
  rw [q] at q'
  cases q'
  obtain ⟨_, _, _, _, _, _, lo, hi, e, q1, G, _⟩ := G rfl
  cases e
  rw [ht'] at q1
  cases q1
  have ec := hc _ q
  have e0 : f.krocw = ko := by
    have := W.connate
    simp only [List.getD_cons_succ, List.getD_cons_zero] at ec
    rw [ec] at this
    exact (Option.some.inj this).symm
  have e1 : fw.krw = f.krw := Except.ok.inj (W'.water.symm.trans W.water)
  have e2 : fw.krow = f.krow := Except.ok.inj (W'.oil.symm.trans W.oil)
  rw [kr_water hu', e1, e2] at hs
  obtain ⟨a', ha, hs⟩ := bind_eq_ok.1 hs
  obtain ⟨b', hb, hs⟩ := bind_eq_ok.1 hs
  have hs := Except.ok.inj hs
  simp only [List.cons.injEq, and_true] at hs
  obtain ⟨rfl, rfl⟩ := hs
  have hb : f.krow.eval sw = .ok b' := hb
  rw [kr_three hu]
  unfold Funcs.kr3
  dsimp only
  unfold stone
  rw [ha, bind_ok, tab_node G.gas h3 g0 k0, bind_ok, add_zero, hb, bind_ok, tab_node G.oil h4 g0 hk, bind_ok, e0, fdiv_ok hf, bind_ok, fdiv_ok hf, bind_ok, bind_ok, bind_ok]
  have : ko * ((b' / ko + a') * (ko / ko + 0) - a' - 0) = b' := by field_simp; ring
  dsimp only
  rw [this, clip_eq]

/-- Segregated water and gas: without gas, and with free water above the threshold, the relative permeabilities are those of water and oil. -/
theorem gwseg_without_gas {ts ts' : List (List (List Rat))} {table : Nat} {f fw : Funcs} (h : Funcs.init .gwseg none (some ts) (some ts') table (usageOf true true) = .ok f)
    (hw : Funcs.init .gwseg none (some ts) none table (usageOf true false) = .ok fw)
    {sg krg krog pcog : List Rat} {rest' : List (List Rat)} (ht' : ts'[table]? = some (sg :: krg :: krog :: pcog :: rest')) (h3 : SatTable sg krg) (h4 : SatTable sg krog)
    {swco : Rat} (hc : ∀ t, ts[table]? = some t → (t.getD 0 [])[0]? = some swco)
    {sw a b : Rat} (hsw : swco + 1 / 1000000 ≤ sw) (hs : fw.krAt .gwseg [sw, 1 - sw] = .ok [a, b]) (so : Rat) : f.krAt .gwseg [sw, so, 0] = .ok [a, b, 0] := by
  obtain ⟨hu, _, _, _, _, _, _, co, mx, e, q, W, mn, _, G⟩ := init_water h
  cases e
  obtain ⟨hu', _, _, _, _, _, _, co', mx', e, q', W', _⟩ := init_water hw
  cases e
  rw [q] at q'
  cases q'
  obtain ⟨_, _, _, _, _, _, lo, hi, e, q1, G, _, e4, _⟩ := G rfl
  cases e
  rw [ht'] at q1
  cases q1
  have ec := hc _ q
  simp only [List.getD_cons_zero] at ec
  have e0 : co = swco := by
    have := W.lo
    rw [ec] at this
    exact (Option.some.inj this).symm
  subst e0
  have e1 : fw.krw = f.krw := Except.ok.inj (W'.water.symm.trans W.water)
  have e2 : fw.krow = f.krow := Except.ok.inj (W'.oil.symm.trans W.oil)
  rw [kr_water hu', e1, e2] at hs
  obtain ⟨a', ha, hs⟩ := bind_eq_ok.1 hs
  obtain ⟨b', hb, hs⟩ := bind_eq_ok.1 hs
  have hs := Except.ok.inj hs
  simp only [List.cons.injEq, and_true] at hs
  obtain ⟨rfl, rfl⟩ := hs
  have hb : f.krow.eval sw = .ok b' := hb
  obtain ⟨g, hg⟩ := tab_defined G.gas h3 (sw - co + 0)
  obtain ⟨o, ho⟩ := tab_defined G.oil h4 (sw - co + 0)
  have mxw : max sw co = sw := max_eq_left (by linarith)
  have hd : sw - co ≠ 0 := by intro z; linarith
  have z : waterZone sw 0 co = .ok 1 := by
    unfold waterZone
    rw [zero_add, max_eq_left (by linarith : (1 : Rat) / 1000000 ≤ sw - co), fdiv_ok hd, div_self hd]
  rw [kr_three hu]
  unfold Funcs.kr3
  dsimp only
  rw [hu, e4, show rd (usageOf true true).pos Aqua = .ok 0 from rfl, bind_ok, show rd [co, 1 - mx, lo] 0 = .ok co from rfl, bind_ok, mxw, z, bind_ok, zero_add, ha, bind_ok, hg, bind_ok, hb, bind_ok, ho, bind_ok, bind_ok]
  dsimp only
  norm_num

/-- Segregated water and gas: with connate water (or less), the relative permeabilities at the saturations of the table of gas are those of oil and gas. -/
theorem gwseg_connate_water {ts ts' : List (List (List Rat))} {table : Nat} {f : Funcs} (h : Funcs.init .gwseg none (some ts) (some ts') table (usageOf true true) = .ok f)
    {sw krw krow pcow sg krg krog pcog : List Rat} {rest rest' : List (List Rat)} (ht : ts[table]? = some (sw :: krw :: krow :: pcow :: rest)) (ht' : ts'[table]? = some (sg :: krg :: krog :: pcog :: rest'))
    (h1 : SatTable sw krw) (h2 : SatTable sw krow) (h3 : SatTable sg krg) (h4 : SatTable sg krog) {swco s : Rat} (hc : sw[0]? = some swco) (hs : s ≤ swco)
    (j : Nat) (g a b so : Rat) (hg : sg[j]? = some g) (ha : krog[j]? = some a) (hb : krg[j]? = some b) : f.krAt .gwseg [s, so, g] = .ok [0, a, b] := by
  obtain ⟨hu, _, _, _, _, _, _, co, mx, e, q, W, _, _, G0⟩ := init_water h
  cases e
  rw [ht] at q
  cases q
  obtain ⟨_, _, _, _, _, _, lo, hi, e, q, G, _, e4, _⟩ := G0 rfl
  cases e
  rw [ht'] at q
  cases q
  have e0 := W.lo
  rw [hc] at e0
  cases e0
  obtain ⟨w, hw⟩ := tab_defined W.water h1 (g + swco)
  obtain ⟨o, ho⟩ := tab_defined W.oil h2 (g + swco)
  have z : waterZone swco g swco = .ok 0 := by
    unfold waterZone
    rw [fdiv_ok (ne_of_gt (lt_of_lt_of_le (by norm_num) (le_max_right _ _))), sub_self, zero_div]
  rw [kr_three hu]
  unfold Funcs.kr3
  dsimp only
  rw [hu, e4, show rd (usageOf true true).pos Aqua = .ok 0 from rfl, bind_ok, show rd [swco, 1 - mx, lo] 0 = .ok swco from rfl, bind_ok, max_eq_right hs, z, bind_ok, sub_self, zero_add, hw, bind_ok, tab_node G.gas h3 hg hb, bind_ok, ho, bind_ok,
    tab_node G.oil h4 hg ha, bind_ok, bind_ok]
  dsimp only
  norm_num

/-- Segregated water and gas: between, oil's relative permeability is between the ones of both tables, and those of water and gas are not larger than in the tables and not of another sign. -/
theorem gwseg_between {f : Funcs} (hu : f.usage = usageOf true true) {swco : Rat} {rest : List Rat} (hc : f.smin = swco :: rest) {sw so sg w o g og : Rat} (h0 : swco ≤ sw) (h1 : 0 ≤ sg)
    (hw : f.krw.eval (sw + sg) = .ok w) (ho : f.krow.eval (sw + sg) = .ok o) (hg : f.krg.eval (sw + sg - swco) = .ok g) (hog : f.krog.eval (sw + sg - swco) = .ok og) (w0 : 0 ≤ w) (g0 : 0 ≤ g) :
    ∃ a b c, f.krAt .gwseg [sw, so, sg] = .ok [a, b, c] ∧ 0 ≤ a ∧ a ≤ w ∧ min o og ≤ b ∧ b ≤ max o og ∧ 0 ≤ c ∧ c ≤ g := by
  have dp : 0 < max (sg + sw - swco) (1 / 1000000) := lt_of_lt_of_le (by norm_num) (le_max_right _ _)
  obtain ⟨x, hx, x0, x1⟩ : ∃ x, waterZone sw sg swco = .ok x ∧ 0 ≤ x ∧ x ≤ 1 := by
    refine ⟨_, fdiv_ok (ne_of_gt dp), div_nonneg (by linarith) (le_of_lt dp), (div_le_one dp).2 (le_trans (by linarith) (le_max_left _ _))⟩
  have y0 : 0 ≤ 1 - x := by linarith
  rw [kr_three hu]
  unfold Funcs.kr3
  dsimp only
  rw [hu, hc, show rd (usageOf true true).pos Aqua = .ok 0 from rfl, bind_ok, show rd (swco :: rest) 0 = .ok swco from rfl, bind_ok, max_eq_left h0, hx, bind_ok, show sg + sw = sw + sg by ring, show sw - swco + sg = sw + sg - swco by ring, hw, bind_ok, hg, bind_ok, ho, bind_ok, hog, bind_ok, bind_ok]
  refine ⟨_, _, _, rfl, mul_nonneg x0 w0, mul_le_of_le_one_left w0 x1, ?_, ?_, mul_nonneg y0 g0, mul_le_of_le_one_left g0 (by linarith)⟩
  · have p := mul_le_mul_of_nonneg_left (min_le_left o og) x0
    have q := mul_le_mul_of_nonneg_left (min_le_right o og) y0
    dsimp only
    linarith
  · have p := mul_le_mul_of_nonneg_left (le_max_left o og) x0
    have q := mul_le_mul_of_nonneg_left (le_max_right o og) y0
    dsimp only
    linarith

/-! ### A deck, and findings -/

/-- A table of SWOF. -/
def exSwof : List (List (List Rat)) := [[[1 / 5, 1 / 2, 1], [0, 1 / 5, 1], [1, 2 / 5, 0], [3, 1, 0]]]
/-- A table of SGOF. -/
def exSgof : List (List (List Rat)) := [[[0, 2 / 5, 4 / 5], [0, 1 / 5, 1], [1, 2 / 5, 0], [0, 1 / 10, 1 / 2]]]

/-- The functions of the deck. -/
def exFuncs (w g : Bool) (e : Option Ends) : Funcs where
  usage := usageOf w g
  krw := .nonuniform ⟨[1 / 5, 1 / 2, 1], [0, 1 / 5, 1], [], []⟩
  krow := .nonuniform ⟨[1 / 5, 1 / 2, 1], [1, 2 / 5, 0], [], []⟩
  pcow := .nonuniform ⟨[1 / 5, 1 / 2, 1], [3, 1, 0], [], []⟩
  krg := if g then .nonuniform ⟨[0, 2 / 5, 4 / 5], [0, 1 / 5, 1], [], []⟩ else .nonuniform ⟨[], [], [], []⟩
  krog := if g then .nonuniform ⟨[0, 2 / 5, 4 / 5], [1, 2 / 5, 0], [], []⟩ else .nonuniform ⟨[], [], [], []⟩
  pcog := if g then .nonuniform ⟨[0, 2 / 5, 4 / 5], [0, 1 / 10, 1 / 2], [], []⟩ else .nonuniform ⟨[], [], [], []⟩
  krocw := 1
  smin := [1 / 5, 0, 0]
  smax := [1, 4 / 5, if g then 4 / 5 else 0]
  ends := e

theorem ex_init (k : Kind) (g : Bool) : Funcs.init k none (some exSwof) (if g then some exSgof else none) 0 (usageOf true g) = .ok (exFuncs true g (if k = .simple then some ⟨1, 1, 1 / 5, 1, 0, 1⟩ else none)) := by
  cases k <;> cases g <;> decide +kernel

theorem ex_water : SatTable [1 / 5, 1 / 2, 1] [0, 1 / 5, 1] := ⟨by decide +kernel, by simp, rfl⟩
theorem ex_oil : SatTable [1 / 5, 1 / 2, 1] [1, 2 / 5, 0] := ⟨by decide +kernel, by simp, rfl⟩
theorem ex_pcow : SatTable [1 / 5, 1 / 2, 1] [3, 1, 0] := ⟨by decide +kernel, by simp, rfl⟩
theorem ex_gas : SatTable [0, 2 / 5, 4 / 5] [0, 1 / 5, 1] := ⟨by decide +kernel, by simp, rfl⟩
theorem ex_gas_oil : SatTable [0, 2 / 5, 4 / 5] [1, 2 / 5, 0] := ⟨by decide +kernel, by simp, rfl⟩

/-- The deck meets the hypotheses of the theorems above. -/
example : (exFuncs true false none).krAt .gwseg [1 / 2, 1 / 2] = .ok [1 / 5, 2 / 5] := (water_oil_reproduces (ex_init .gwseg false) rfl ex_water ex_oil ex_pcow 1 _ _ _ _ rfl rfl rfl rfl).1
example : (exFuncs true true none).krAt .gwseg [1 / 5, 2 / 5, 2 / 5] = .ok [0, 2 / 5, 1 / 5] := gwseg_connate_water (ex_init .gwseg true) rfl rfl ex_water ex_oil ex_gas ex_gas_oil rfl (le_refl _) 1 _ _ _ _ rfl rfl rfl
example : (exFuncs true true none).krAt .gwseg [1 / 2, 1 / 2, 0] = .ok [1 / 5, 2 / 5, 0] :=
  gwseg_without_gas (ex_init .gwseg true) (ex_init .gwseg false) rfl ex_gas ex_gas_oil (swco := 1 / 5) (by intro t ht; cases ht; rfl) (by norm_num) (by decide +kernel) _
example : (exFuncs true true none).krAt .stone2 [1 / 2, 1 / 2, 0] = .ok [1 / 5, max (2 / 5) 0, 0] :=
  stone2_without_gas (ex_init .stone2 true) (ex_init .stone2 false) rfl ex_gas ex_gas_oil rfl rfl rfl one_ne_zero (by intro t ht; cases ht; rfl) (by decide +kernel) _
example : ∃ a b c, (exFuncs true true none).krAt .gwseg [3 / 10, 1 / 2, 1 / 5] = .ok [a, b, c] ∧ 0 ≤ a ∧ a ≤ 1 / 5 ∧ min (2 / 5) (11 / 20) ≤ b ∧ b ≤ max (2 / 5) (11 / 20) ∧ 0 ≤ c ∧ c ≤ 3 / 20 :=
  gwseg_between rfl rfl (by norm_num) (by norm_num) (by decide +kernel) (by decide +kernel) (by decide +kernel) (by decide +kernel) (by norm_num) (by norm_num)
example : ∃ e, (exFuncs true false (some ⟨1, 1, 1 / 5, 1, 0, 1⟩)).ends = some e ∧ e.swcr = 1 / 5 := ⟨_, rfl, rfl⟩
example := critical_saturations (ex_init .simple false) rfl ex_water ex_oil (by decide +kernel) (by decide +kernel) rfl rfl rfl rfl one_pos one_pos
example := water_oil_monotone (ex_init .simple false) rfl ex_water ex_oil (by decide +kernel) (by decide +kernel) (show (1 / 3 : Rat) ≤ 1 / 2 by norm_num)

theorem ex_smooth (g : Bool) : (∀ x, x ≠ 1 / 5 → x ≠ 1 / 2 → x ≠ 1 → Smooth (exFuncs true g none).krw x ∧ Smooth (exFuncs true g none).krow x ∧ Smooth (exFuncs true g none).pcow x) ∧
    (g = true → ∀ x, x ≠ 0 → x ≠ 2 / 5 → x ≠ 4 / 5 → Smooth (exFuncs true g none).krg x ∧ Smooth (exFuncs true g none).krog x) := by
  constructor
  · intro x a b c
    have n : x ∉ [(1 / 5 : Rat), 1 / 2, 1] := by simp only [List.mem_cons, List.not_mem_nil, or_false, not_or]; exact ⟨a, b, c⟩
    exact ⟨smooth_nonuniform ex_water (mkTab_ok ex_water) n, smooth_nonuniform ex_oil (mkTab_ok ex_oil) n, smooth_nonuniform ex_pcow (mkTab_ok ex_pcow) n⟩
  · rintro rfl x a b c
    have n : x ∉ [(0 : Rat), 2 / 5, 4 / 5] := by simp only [List.mem_cons, List.not_mem_nil, or_false, not_or]; exact ⟨a, b, c⟩
    exact ⟨smooth_nonuniform ex_gas (mkTab_ok ex_gas) n, smooth_nonuniform ex_gas_oil (mkTab_ok ex_gas_oil) n⟩

example := water_oil_derivative (f := exFuncs true false none) rfl .simple (sw := 2 / 5) (so := 3 / 5) (vw := 1) (vo := -1) (by norm_num) ((ex_smooth false).1 _ (by norm_num) (by norm_num) (by norm_num)).1 ((ex_smooth false).1 _ (by norm_num) (by norm_num) (by norm_num)).2.1
example := simple_derivative_partial (f := exFuncs true true none) rfl (sw := 3 / 10) (so := 3 / 5) (sg := 1 / 10) (vw := 1) (vo := -1) (vg := 0) (by norm_num) ((ex_smooth true).1 _ (by norm_num) (by norm_num) (by norm_num)).1
  ((ex_smooth true).2 rfl _ (by norm_num) (by norm_num) (by norm_num)).1 ((ex_smooth true).1 _ (by norm_num) (by norm_num) (by norm_num)).2.1 (kro := 3 / 5) (by decide +kernel) (by norm_num)
example := gwseg_derivative_partial (f := exFuncs true true none) rfl rfl (sw := 3 / 10) (so := 3 / 5) (sg := 1 / 10) (vw := 1) (vo := -1) (vg := 0) (by norm_num) (by norm_num) ((ex_smooth true).1 _ (by norm_num) (by norm_num) (by norm_num)).1
  ((ex_smooth true).1 _ (by norm_num) (by norm_num) (by norm_num)).2.1 ((ex_smooth true).2 rfl _ (by norm_num) (by norm_num) (by norm_num)).1 ((ex_smooth true).2 rfl _ (by norm_num) (by norm_num) (by norm_num)).2

/-- Finding: the derivative of oil's relative permeability in Stone's model is not its slope, in any direction in which the saturation of gas changes. -/
theorem stone2_derivative_wrong : ∃ m v, (exFuncs true true none).dkrAt .stone2 [3 / 10, 3 / 5, 1 / 10] = .ok (v, m) ∧
    ∀ vw vo vg : Rat, vg ≠ 0 → ¬ SlopeAt (fun t => (exFuncs true true none).krOf .stone2 1 (along [3 / 10, 3 / 5, 1 / 10] [vw, vo, vg] t)) 0 (rowTimes 3 m [vw, vo, vg] 1) := by
  have S := fun vw vo vg => stone2_derivative_partial (f := exFuncs true true none) rfl (sw := 3 / 10) (so := 3 / 5) (sg := 1 / 10) (vw := vw) (vo := vo) (vg := vg) (kro := 29 / 60) (krw := 1 / 15) (krg := 1 / 20) (krog := 17 / 20) (dkrg := 1 / 2)
    one_ne_zero ((ex_smooth true).1 _ (by norm_num) (by norm_num) (by norm_num)).1 ((ex_smooth true).1 _ (by norm_num) (by norm_num) (by norm_num)).2.1 ((ex_smooth true).2 rfl _ (by norm_num) (by norm_num) (by norm_num)).1
    ((ex_smooth true).2 rfl _ (by norm_num) (by norm_num) (by norm_num)).2 (by decide +kernel) (by decide +kernel) (by decide +kernel) (by decide +kernel) (by decide +kernel) (by norm_num)
  obtain ⟨v, m, _, h2, _⟩ := S 0 0 0
  refine ⟨m, v, h2, fun vw vo vg hg hs => ?_⟩
  obtain ⟨v', m', _, h2', _, _, h3⟩ := S vw vo vg
  rw [h2] at h2'
  cases h2'
  have := slope_unique hs h3
  have e : (exFuncs true true none).krocw = 1 := rfl
  rw [e] at this
  apply hg
  linarith

/-- Finding: with connate water and without gas, the derivatives of the model with segregated water and gas are not finite, for all tables. -/
theorem gwseg_derivative_undefined {f : Funcs} (hu : f.usage = usageOf true true) {swco : Rat} {rest : List Rat} (hc : f.smin = swco :: rest) {sw so : Rat} (h0 : sw ≤ swco) (h1 : Smooth f.krw swco) (h2 : Smooth f.krow swco) (h3 : Smooth f.krg 0) (h4 : Smooth f.krog 0) :
    f.dkrAt .gwseg [sw, so, 0] = .error .nonFinite := by
  obtain ⟨d1, e1, s1⟩ := h1
  obtain ⟨d2, e2, s2⟩ := h2
  obtain ⟨d3, e3, s3⟩ := h3
  obtain ⟨d4, e4, s4⟩ := h4
  obtain ⟨a1, g1⟩ := s1.value
  obtain ⟨a2, g2⟩ := s2.value
  obtain ⟨a3, g3⟩ := s3.value
  obtain ⟨a4, g4⟩ := s4.value
  have z : waterZone swco 0 swco = .ok 0 := by
    unfold waterZone
    rw [fdiv_ok (ne_of_gt (lt_of_lt_of_le (by norm_num) (le_max_right _ _))), sub_self, zero_div]
  have k3 : f.kr3 .gwseg sw 0 = .ok (0 * a1, 0 * a2 + (1 - 0) * a4, (1 - 0) * a3) := by
    unfold Funcs.kr3
    dsimp only
    rw [hu, hc, show rd (usageOf true true).pos Aqua = .ok 0 from rfl, bind_ok, show rd (swco :: rest) 0 = .ok swco from rfl, bind_ok, max_eq_right h0, z, bind_ok, sub_self, zero_add, zero_add, g1, bind_ok, g3, bind_ok, g2, bind_ok, g4, bind_ok]
  have d3 : f.dkr3 .gwseg sw 0 = .error .nonFinite := by
    unfold Funcs.dkr3
    dsimp only
    rw [hu, hc, show rd (usageOf true true).pos Aqua = .ok 0 from rfl, bind_ok, show rd (swco :: rest) 0 = .ok swco from rfl, bind_ok, max_eq_right h0, z, bind_ok, sub_self, zero_add, zero_add, g1, bind_ok, g3, bind_ok, g2, bind_ok, g4, bind_ok,
      e1, bind_ok, e3, bind_ok, e2, bind_ok, e4, bind_ok]
    rfl
  rw [dkrAt_eq, kr_three hu, k3, dkr_three hu, d3]
  rfl

/-- Finding: below connate water the relative permeabilities do not depend on the saturation of water, but their derivatives do not vanish. -/
theorem gwseg_derivative_below_connate : (∀ s, s ≤ 1 / 5 → (exFuncs true true none).krAt .gwseg [s, 1 - s - 1 / 5, 1 / 5] = (exFuncs true true none).krAt .gwseg [1 / 5, 3 / 5, 1 / 5]) ∧
    ∃ v m, (exFuncs true true none).dkrAt .gwseg [1 / 10, 7 / 10, 1 / 5] = .ok (v, m) ∧ m.getD 0 0 = 2 / 3 ∧ m.getD 1 0 = -2 := by
  constructor
  · intro s hs
    rw [kr_three rfl, kr_three rfl]
    unfold Funcs.kr3
    dsimp only
    have hm : (exFuncs true true none).smin = [1 / 5, 0, 0] := rfl
    rw [hm, show rd (exFuncs true true none).usage.pos Aqua = .ok 0 from rfl, bind_ok, show rd [(1 / 5 : Rat), 0, 0] 0 = .ok (1 / 5) from rfl, bind_ok, bind_ok, show rd [(1 / 5 : Rat), 0, 0] 0 = .ok (1 / 5) from rfl, bind_ok, max_eq_right hs, max_self]
  · exact ⟨[0, 7 / 10, 1 / 10], [2 / 3, -2, 0, 0, 0, 0, 0, -3 / 2, 1 / 2], by decide +kernel, rfl, rfl⟩

/-- Finding: the simple model sets a negative relative permeability of oil to zero, but not its derivative. -/
theorem simple_derivative_not_clipped : (∀ s, 1 < s → (exFuncs true true none).krOf .simple 1 [s, 1 - s - 1 / 5, 1 / 5] = .ok 0) ∧
    ∃ v m, (exFuncs true true none).dkrAt .simple [11 / 10, -3 / 10, 1 / 5] = .ok (v, m) ∧ m.getD 4 0 = 4 / 5 := by
  constructor
  · intro s hs
    obtain ⟨a, ha⟩ := tab_defined (t := (exFuncs true true none).krw) (mkTab_ok ex_water) ex_water s
    have hc : (exFuncs true true none).krg.eval (1 / 5) = .ok (1 / 10) := by decide +kernel
    have hb : (exFuncs true true none).krow.eval (s + 1 / 5) = .ok (2 / 5 + (0 - 2 / 5) / (1 - 1 / 2) * (s + 1 / 5 - 1 / 2)) :=
      interpolation_extrapolates [1 / 5, 1 / 2, 1] [1, 2 / 5, 0] (Or.inl ex_oil.inc) ex_oil.len 1 _ _ _ _ _ rfl rfl rfl rfl (Or.inr ⟨rfl, Or.inl ⟨by norm_num, by linarith⟩⟩)
    refine (krOf_three rfl (k := .simple) (a := a) (b := 0) (c := 1 / 10) ?_).2.1
    unfold Funcs.kr3
    dsimp only
    rw [ha, bind_ok, hc, bind_ok, hb, bind_ok, clip_eq, max_eq_right (by norm_num; linarith)]
  · exact ⟨[29 / 25, 0, 1 / 10], [8 / 5, 0, 0, 0, 4 / 5, 0, 0, 0, 1 / 2], by decide +kernel, rfl⟩

/-- Finding: with connate water, neither the simple model nor Stone's gives the relative permeability of oil in the table of gas (which is 2/5 here). -/
theorem no_gas_oil_table : (exFuncs true true (some ⟨1, 1, 1 / 5, 1, 0, 1⟩)).krOf .simple 1 [1 / 5, 2 / 5, 2 / 5] = .ok (8 / 25) ∧ (exFuncs true true none).krOf .stone2 1 [1 / 5, 2 / 5, 2 / 5] = .ok 0 ∧ (exFuncs true true none).krog.eval (2 / 5) = .ok (2 / 5) := by
  decide +kernel

/-- Finding: below connate water the table is extrapolated, and the relative permeability of water is negative. -/
theorem negative_relperm : (exFuncs true false none).krOf .simple 0 [0, 1] = .ok (-2 / 15) := by decide +kernel

end Opm.SatFunc
