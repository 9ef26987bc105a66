import Verif.Proofs.SatSlope
/-!
# Derivatives of relative permeabilities and capillary pressures
-/

namespace Opm.SatFunc
open Opm Opm.Interp Opm.Pvt Opm.Blackoil Opm.Rock

theorem rowTimes_two (a b c d x y : Rat) : rowTimes 2 [a, b, c, d] [x, y] 0 = a * x + c * y ∧ rowTimes 2 [a, b, c, d] [x, y] 1 = b * x + d * y := by
  constructor <;> simp [rowTimes, List.range_succ]

theorem rowTimes_three (a b c d e f g h i x y z : Rat) : rowTimes 3 [a, b, c, d, e, f, g, h, i] [x, y, z] 0 = a * x + d * y + g * z ∧ rowTimes 3 [a, b, c, d, e, f, g, h, i] [x, y, z] 1 = b * x + e * y + h * z ∧
    rowTimes 3 [a, b, c, d, e, f, g, h, i] [x, y, z] 2 = c * x + f * y + i * z := by
  refine ⟨?_, ?_, ?_⟩ <;> simp [rowTimes, List.range_succ] <;> ring

theorem all_two {P : Nat → Prop} (h0 : P 0) (h1 : P 1) : ∀ i, i < 2 → P i := by
  intro i hi
  rcases i with _ | _ | i
  · exact h0
  · exact h1
  · omega

theorem all_three {P : Nat → Prop} (h0 : P 0) (h1 : P 1) (h2 : P 2) : ∀ i, i < 3 → P i := by
  intro i hi
  rcases i with _ | _ | _ | i
  · exact h0
  · exact h1
  · exact h2
  · omega

theorem krOf_water {f : Funcs} (hu : f.usage = usageOf true false) {k : Kind} {sw so a b : Rat} (ha : f.krw.eval sw = .ok a) (hb : f.krow.eval (oilArg k sw so) = .ok b) :
    f.krOf k 0 [sw, so] = .ok a ∧ f.krOf k 1 [sw, so] = .ok b := by
  unfold Funcs.krOf
  rw [kr_water hu, ha, bind_ok, hb]
  exact ⟨rfl, rfl⟩

theorem krOf_gas {f : Funcs} (hu : f.usage = usageOf false true) {k : Kind} {so sg a b : Rat} (ha : f.krg.eval sg = .ok a) (hb : f.krog.eval sg = .ok b) :
    f.krOf k 0 [so, sg] = .ok b ∧ f.krOf k 1 [so, sg] = .ok a := by
  unfold Funcs.krOf
  rw [kr_gas hu, ha, bind_ok, hb]
  exact ⟨rfl, rfl⟩

theorem krOf_three {f : Funcs} (hu : f.usage = usageOf true true) {k : Kind} {sw so sg a b c : Rat} (h : f.kr3 k sw sg = .ok (a, b, c)) :
    f.krOf k 0 [sw, so, sg] = .ok a ∧ f.krOf k 1 [sw, so, sg] = .ok b ∧ f.krOf k 2 [sw, so, sg] = .ok c := by
  unfold Funcs.krOf
  rw [kr_three hu, h]
  exact ⟨rfl, rfl, rfl⟩

/-- Two phases with water: the derivative gives the slopes of both relative permeabilities in each direction which keeps the sum of saturations. -/
theorem water_oil_derivative {f : Funcs} (hu : f.usage = usageOf true false) (k : Kind) {sw so vw vo : Rat} (hv : vw + vo = 0) (h1 : Smooth f.krw sw) (h2 : Smooth f.krow (if k = .simple then 1 - so else sw)) :
    ∃ v m, f.krAt k [sw, so] = .ok v ∧ f.dkrAt k [sw, so] = .ok (v, m) ∧ ∀ i, i < 2 → SlopeAt (fun t => f.krOf k i (along [sw, so] [vw, vo] t)) 0 (rowTimes 2 m [vw, vo] i) := by
  have ho : (if k = .simple then 1 - so else sw) = oilArg k sw so := by cases k <;> rfl
  rw [ho] at h2
  obtain ⟨d1, e1, s1⟩ := h1
  obtain ⟨d2, e2, s2⟩ := h2
  obtain ⟨a, ha⟩ := s1.value
  obtain ⟨b, hb⟩ := s2.value
  have L1 := s1.line vw
  have L2 : SlopeAt (fun t => f.krow.eval (oilArg k (sw + t * vw) (so + t * vo))) 0 (d2 * vw) := s2.path vw (by
    intro t
    cases k
    · show 1 - (so + t * vo) = 1 - so + t * vw
      rw [show vo = -vw by linarith]; ring
    · rfl
    · rfl)
  obtain ⟨δ1, p1, q1⟩ := L1.defined
  obtain ⟨δ2, p2, q2⟩ := L2.defined
  refine ⟨[a, b], [d1, d2, 0, 0], by rw [kr_water hu, ha, bind_ok, hb, bind_ok], ?_, all_two ?_ ?_⟩
  · rw [dkrAt_eq, kr_water hu, ha, bind_ok, hb, bind_ok, bind_ok, dkr_water hu, e1, bind_ok, e2, bind_ok, bind_ok, hu]
    rfl
  · rw [(rowTimes_two ..).1, show d1 * vw + 0 * vo = d1 * vw by ring]
    refine L1.congr p2 (fun t ht => ?_)
    obtain ⟨w, hw⟩ := q2 t ht
    show f.krOf k 0 [sw + (0 + t) * vw, so + (0 + t) * vo] = f.krw.eval (sw + (0 + t) * vw)
    unfold Funcs.krOf
    rw [kr_water hu, hw]
    cases f.krw.eval (sw + (0 + t) * vw) <;> rfl
  · rw [(rowTimes_two ..).2, show d2 * vw + 0 * vo = d2 * vw by ring]
    refine L2.congr p1 (fun t ht => ?_)
    obtain ⟨w, hw⟩ := q1 t ht
    show f.krOf k 1 [sw + (0 + t) * vw, so + (0 + t) * vo] = f.krow.eval (oilArg k (sw + (0 + t) * vw) (so + (0 + t) * vo))
    unfold Funcs.krOf
    rw [kr_water hu, hw, bind_ok]
    cases f.krow.eval (oilArg k (sw + (0 + t) * vw) (so + (0 + t) * vo)) <;> rfl

/-- Two phases with gas: the same, in all directions. -/
theorem gas_oil_derivative {f : Funcs} (hu : f.usage = usageOf false true) (k : Kind) {so sg vo vg : Rat} (h1 : Smooth f.krg sg) (h2 : Smooth f.krog sg) :
    ∃ v m, f.krAt k [so, sg] = .ok v ∧ f.dkrAt k [so, sg] = .ok (v, m) ∧ ∀ i, i < 2 → SlopeAt (fun t => f.krOf k i (along [so, sg] [vo, vg] t)) 0 (rowTimes 2 m [vo, vg] i) := by
  obtain ⟨d1, e1, s1⟩ := h1
  obtain ⟨d2, e2, s2⟩ := h2
  obtain ⟨a, ha⟩ := s1.value
  obtain ⟨b, hb⟩ := s2.value
  have L1 := s1.line vg
  have L2 := s2.line vg
  obtain ⟨δ1, p1, q1⟩ := L1.defined
  obtain ⟨δ2, p2, q2⟩ := L2.defined
  refine ⟨[b, a], [0, 0, d2, d1], by rw [kr_gas hu, ha, bind_ok, hb, bind_ok], ?_, all_two ?_ ?_⟩
  · rw [dkrAt_eq, kr_gas hu, ha, bind_ok, hb, bind_ok, bind_ok, dkr_gas hu, e1, bind_ok, e2, bind_ok, bind_ok, hu]
    rfl
  · rw [(rowTimes_two ..).1, show 0 * vo + d2 * vg = d2 * vg by ring]
    refine L2.congr p1 (fun t ht => ?_)
    obtain ⟨w, hw⟩ := q1 t ht
    show f.krOf k 0 [so + (0 + t) * vo, sg + (0 + t) * vg] = f.krog.eval (sg + (0 + t) * vg)
    unfold Funcs.krOf
    rw [kr_gas hu, hw, bind_ok]
    cases f.krog.eval (sg + (0 + t) * vg) <;> rfl
  · rw [(rowTimes_two ..).2, show 0 * vo + d1 * vg = d1 * vg by ring]
    refine L1.congr p2 (fun t ht => ?_)
    obtain ⟨w, hw⟩ := q2 t ht
    show f.krOf k 1 [so + (0 + t) * vo, sg + (0 + t) * vg] = f.krg.eval (sg + (0 + t) * vg)
    unfold Funcs.krOf
    rw [kr_gas hu, hw]
    cases f.krg.eval (sg + (0 + t) * vg) <;> rfl

/-- A positive function is not changed by clipping nearby. -/
theorem clip_near {g : Rat → M Rat} {x d v : Rat} (h : SlopeAt g x d) (hv : g x = .ok v) (h0 : 0 < v) : ∃ δ, 0 < δ ∧ ∀ t, |t| < δ → ∃ w, g (x + t) = .ok w ∧ clip w = w := by
  obtain ⟨δ, p, q⟩ := h.near hv h0
  refine ⟨δ, p, fun t ht => ?_⟩
  obtain ⟨w, hw, hd⟩ := q t ht
  refine ⟨w, hw, ?_⟩
  unfold clip
  rw [if_neg]
  have := (abs_lt.1 hd).1
  linarith

/-- Three phases, simple model: the derivative gives the slopes of all relative permeabilities in each direction which keeps the sum of saturations, where the relative permeability of oil is positive. -/
theorem simple_derivative_partial {f : Funcs} (hu : f.usage = usageOf true true) {sw so sg vw vo vg kro : Rat} (hv : vw + vo + vg = 0) (h1 : Smooth f.krw sw) (h2 : Smooth f.krg sg)
    (h3 : Smooth f.krow (sw + sg)) (hk : f.krow.eval (sw + sg) = .ok kro) (hp : 0 < kro) :
    ∃ v m, f.krAt .simple [sw, so, sg] = .ok v ∧ f.dkrAt .simple [sw, so, sg] = .ok (v, m) ∧
      ∀ i, i < 3 → SlopeAt (fun t => f.krOf .simple i (along [sw, so, sg] [vw, vo, vg] t)) 0 (rowTimes 3 m [vw, vo, vg] i) := by
  obtain ⟨d1, e1, s1⟩ := h1
  obtain ⟨d2, e2, s2⟩ := h2
  obtain ⟨d3, e3, s3⟩ := h3
  obtain ⟨a, ha⟩ := s1.value
  obtain ⟨b, hb⟩ := s2.value
  have L1 := s1.line vw
  have L2 := s2.line vg
  have L3 : SlopeAt (fun t => f.krow.eval (sw + t * vw + (sg + t * vg))) 0 (d3 * (vw + vg)) := s3.path _ (fun t => by ring)
  obtain ⟨δ1, p1, q1⟩ := L1.defined
  obtain ⟨δ2, p2, q2⟩ := L2.defined
  obtain ⟨δ3, p3, q3⟩ := clip_near L3 (by simpa using hk) hp
  have key : ∀ t, |t| < min δ1 (min δ2 δ3) → ∃ x y z, f.krw.eval (sw + (0 + t) * vw) = .ok x ∧ f.krg.eval (sg + (0 + t) * vg) = .ok y ∧ f.krow.eval (sw + (0 + t) * vw + (sg + (0 + t) * vg)) = .ok z ∧
      f.kr3 .simple (sw + (0 + t) * vw) (sg + (0 + t) * vg) = .ok (x, z, y) := by
    intro t ht
    obtain ⟨t1, t'⟩ := lt_min_iff.1 ht
    obtain ⟨t2, t3⟩ := lt_min_iff.1 t'
    obtain ⟨x, hx⟩ := q1 t t1
    obtain ⟨y, hy⟩ := q2 t t2
    obtain ⟨z, hz, hc⟩ := q3 t t3
    refine ⟨x, y, z, hx, hy, hz, ?_⟩
    simp only [Funcs.kr3]
    rw [hx, bind_ok, hy, bind_ok, hz, bind_ok, hc]
  have p : 0 < min δ1 (min δ2 δ3) := lt_min p1 (lt_min p2 p3)
  have hkr : f.krAt .simple [sw, so, sg] = .ok [a, kro, b] := by
    rw [kr_three hu]
    simp only [Funcs.kr3]
    rw [ha, bind_ok, hb, bind_ok, hk, bind_ok, bind_ok, show clip kro = kro from if_neg (by linarith)]
  refine ⟨_, [d1, 0, 0, 0, -d3, 0, 0, 0, d2], hkr, ?_, all_three ?_ ?_ ?_⟩
  · rw [dkrAt_eq, hkr, bind_ok, dkr_three hu]
    simp only [Funcs.dkr3]
    rw [e1, bind_ok, e2, bind_ok, e3, bind_ok, bind_ok, hu]
    rfl
  · rw [(rowTimes_three ..).1, show d1 * vw + 0 * vo + 0 * vg = d1 * vw by ring]
    refine L1.congr p (fun t ht => ?_)
    obtain ⟨x, y, z, hx, hy, hz, h⟩ := key t ht
    exact (krOf_three hu h).1.trans hx.symm
  · rw [(rowTimes_three ..).2.1, show 0 * vw + -d3 * vo + 0 * vg = d3 * (vw + vg) by rw [show vo = -vw - vg by linarith]; ring]
    refine L3.congr p (fun t ht => ?_)
    obtain ⟨x, y, z, hx, hy, hz, h⟩ := key t ht
    exact (krOf_three hu h).2.1.trans hz.symm
  · rw [(rowTimes_three ..).2.2, show 0 * vw + 0 * vo + d2 * vg = d2 * vg by ring]
    refine L2.congr p (fun t ht => ?_)
    obtain ⟨x, y, z, hx, hy, hz, h⟩ := key t ht
    exact (krOf_three hu h).2.2.trans hy.symm

/-- Three phases, segregated water and gas: the derivative gives the slopes of all relative permeabilities in all directions, if there is more water than connate water and the zones of water and
gas together are larger than the threshold. -/
theorem gwseg_derivative_partial {f : Funcs} (hu : f.usage = usageOf true true) {swco : Rat} {rest : List Rat} (hc : f.smin = swco :: rest) {sw so sg vw vo vg : Rat} (h0 : swco < sw) (hd : 1 / 1000000 < sw - swco + sg)
    (h1 : Smooth f.krw (sg + sw)) (h2 : Smooth f.krow (sg + sw)) (h3 : Smooth f.krg (sw - swco + sg)) (h4 : Smooth f.krog (sw - swco + sg)) :
    ∃ v m, f.krAt .gwseg [sw, so, sg] = .ok v ∧ f.dkrAt .gwseg [sw, so, sg] = .ok (v, m) ∧
      ∀ i, i < 3 → SlopeAt (fun t => f.krOf .gwseg i (along [sw, so, sg] [vw, vo, vg] t)) 0 (rowTimes 3 m [vw, vo, vg] i) := by
  obtain ⟨d1, e1, s1⟩ := h1
  obtain ⟨d2, e2, s2⟩ := h2
  obtain ⟨d3, e3, s3⟩ := h3
  obtain ⟨d4, e4, s4⟩ := h4
  obtain ⟨a1, g1⟩ := s1.value
  obtain ⟨a2, g2⟩ := s2.value
  obtain ⟨a3, g3⟩ := s3.value
  obtain ⟨a4, g4⟩ := s4.value
  have dpos : 0 < sw - swco + sg := lt_trans (by norm_num) hd
  have L1 : SlopeAt (fun t => f.krw.eval (sg + t * vg + (sw + t * vw))) 0 (d1 * (vw + vg)) := s1.path _ (fun t => by ring)
  have L2 : SlopeAt (fun t => f.krow.eval (sg + t * vg + (sw + t * vw))) 0 (d2 * (vw + vg)) := s2.path _ (fun t => by ring)
  have L3 : SlopeAt (fun t => f.krg.eval (sw + t * vw - swco + (sg + t * vg))) 0 (d3 * (vw + vg)) := s3.path _ (fun t => by ring)
  have L4 : SlopeAt (fun t => f.krog.eval (sw + t * vw - swco + (sg + t * vg))) 0 (d4 * (vw + vg)) := s4.path _ (fun t => by ring)
  have near1 : ∀ A c ε : Rat, ε < A → ∃ δ : Rat, 0 < δ ∧ ∀ t, |t| < δ → ε < A + t * c := by
    intro A c ε hA
    obtain ⟨δ, p, q⟩ := (slope_linear A c).near (v := A) (by simp) (ε := A - ε) (by linarith)
    refine ⟨δ, p, fun t ht => ?_⟩
    obtain ⟨w, hw, hd⟩ := q t ht
    have := Except.ok.inj hw
    have := (abs_lt.1 hd).1
    rw [zero_add] at *
    linarith
  obtain ⟨δ5, p5, q5⟩ := near1 sw vw swco h0
  obtain ⟨δ6, p6, q6⟩ := near1 (sw - swco + sg) (vw + vg) (1 / 1000000) hd
  have X : SlopeAt (fun t => .ok ((sw - swco + t * vw) / (sw - swco + sg + t * (vw + vg)))) 0 ((vw - (sw - swco) / (sw - swco + sg) * (vw + vg)) / (sw - swco + sg)) := by
    refine ((slope_linear (sw - swco) vw).quot (slope_linear (sw - swco + sg) (vw + vg)) (v := sw - swco) (w := sw - swco + sg) (by simp) (by simp) dpos.ne').congr p6 (fun t ht => ?_)
    have := q6 t ht
    show _ = fdiv (sw - swco + (0 + t) * vw) (sw - swco + sg + (0 + t) * (vw + vg))
    rw [fdiv_ok (by rw [zero_add]; linarith)]
  have X0 : (fun t => .ok ((sw - swco + t * vw) / (sw - swco + sg + t * (vw + vg))) : Rat → M Rat) 0 = .ok ((sw - swco) / (sw - swco + sg)) := by simp
  have Y : SlopeAt (fun t => .ok (1 - (sw - swco + t * vw) / (sw - swco + sg + t * (vw + vg)))) 0 (-((vw - (sw - swco) / (sw - swco + sg) * (vw + vg)) / (sw - swco + sg))) := by
    have := (slope_const 1 0).add (X.smul (-1))
    rw [zero_add, neg_one_mul] at this
    refine this.congr p6 (fun t ht => ?_)
    show _ = Except.ok (1 + -1 * _)
    congr 1
    ring
  have Y0 : (fun t => .ok (1 - (sw - swco + t * vw) / (sw - swco + sg + t * (vw + vg))) : Rat → M Rat) 0 = .ok (1 - (sw - swco) / (sw - swco + sg)) := by simp
  obtain ⟨δ1, p1, q1⟩ := L1.defined
  obtain ⟨δ2, p2, q2⟩ := L2.defined
  obtain ⟨δ3, p3, q3⟩ := L3.defined
  obtain ⟨δ4, p4, q4⟩ := L4.defined
  have val : ∀ sw sg x1 x2 x3 x4 : Rat, swco < sw → 1 / 1000000 < sw - swco + sg → f.krw.eval (sg + sw) = .ok x1 → f.krow.eval (sg + sw) = .ok x2 → f.krg.eval (sw - swco + sg) = .ok x3 → f.krog.eval (sw - swco + sg) = .ok x4 →
      f.kr3 .gwseg sw sg = .ok ((sw - swco) / (sw - swco + sg) * x1, (sw - swco) / (sw - swco + sg) * x2 + (1 - (sw - swco) / (sw - swco + sg)) * x4, (1 - (sw - swco) / (sw - swco + sg)) * x3) := by
    intro sw sg x1 x2 x3 x4 k0 k1 hx1 hx2 hx3 hx4
    simp only [Funcs.kr3, hu]
    rw [show rd (usageOf true true).pos Aqua = .ok 0 from rfl, bind_ok, hc, show rd (swco :: rest) 0 = .ok swco from rfl, bind_ok, max_eq_left k0.le, waterZone, show sg + sw - swco = sw - swco + sg by ring, max_eq_left k1.le,
      fdiv_ok (by linarith), bind_ok, hx1, bind_ok, hx3, bind_ok, hx2, bind_ok, hx4, bind_ok]
  have key : ∀ t, |t| < min δ1 (min δ2 (min δ3 (min δ4 (min δ5 δ6)))) → ∃ x1 x2 x3 x4, f.krw.eval (sg + (0 + t) * vg + (sw + (0 + t) * vw)) = .ok x1 ∧ f.krow.eval (sg + (0 + t) * vg + (sw + (0 + t) * vw)) = .ok x2 ∧
      f.krg.eval (sw + (0 + t) * vw - swco + (sg + (0 + t) * vg)) = .ok x3 ∧ f.krog.eval (sw + (0 + t) * vw - swco + (sg + (0 + t) * vg)) = .ok x4 ∧
      f.kr3 .gwseg (sw + (0 + t) * vw) (sg + (0 + t) * vg) = .ok ((sw - swco + (0 + t) * vw) / (sw - swco + sg + (0 + t) * (vw + vg)) * x1,
        (sw - swco + (0 + t) * vw) / (sw - swco + sg + (0 + t) * (vw + vg)) * x2 + (1 - (sw - swco + (0 + t) * vw) / (sw - swco + sg + (0 + t) * (vw + vg))) * x4,
        (1 - (sw - swco + (0 + t) * vw) / (sw - swco + sg + (0 + t) * (vw + vg))) * x3) := by
    intro t ht
    simp only [lt_min_iff] at ht
    obtain ⟨t1, t2, t3, t4, t5, t6⟩ := ht
    obtain ⟨x1, hx1⟩ := q1 t t1
    obtain ⟨x2, hx2⟩ := q2 t t2
    obtain ⟨x3, hx3⟩ := q3 t t3
    obtain ⟨x4, hx4⟩ := q4 t t4
    have r5 := q5 t t5
    have r6 := q6 t t6
    refine ⟨x1, x2, x3, x4, hx1, hx2, hx3, hx4, ?_⟩
    have := val (sw + (0 + t) * vw) (sg + (0 + t) * vg) x1 x2 x3 x4 (by rw [zero_add]; linarith) (by rw [zero_add]; linarith) hx1 hx2 hx3 hx4
    rw [this, show sw + (0 + t) * vw - swco = sw - swco + (0 + t) * vw by ring, show sw - swco + (0 + t) * vw + (sg + (0 + t) * vg) = sw - swco + sg + (0 + t) * (vw + vg) by ring]
  have p : 0 < min δ1 (min δ2 (min δ3 (min δ4 (min δ5 δ6)))) := lt_min p1 (lt_min p2 (lt_min p3 (lt_min p4 (lt_min p5 p6))))
  have hkr := kr_three hu .gwseg sw so sg
  rw [val sw sg a1 a2 a3 a4 h0 hd g1 g2 g3 g4, bind_ok] at hkr
  have b1 : (fun t => f.krw.eval (sg + t * vg + (sw + t * vw))) 0 = .ok a1 := by simpa using g1
  have b2 : (fun t => f.krow.eval (sg + t * vg + (sw + t * vw))) 0 = .ok a2 := by simpa using g2
  have b3 : (fun t => f.krg.eval (sw + t * vw - swco + (sg + t * vg))) 0 = .ok a3 := by simpa using g3
  have b4 : (fun t => f.krog.eval (sw + t * vw - swco + (sg + t * vg))) 0 = .ok a4 := by simpa using g4
  have dne := dpos.ne'
  refine ⟨_, [(1 - (sw - swco) / (sw - swco + sg)) / (sw - swco + sg) * a1 + (sw - swco) / (sw - swco + sg) * d1,
      (1 - (sw - swco) / (sw - swco + sg)) / (sw - swco + sg) * a2 + (sw - swco) / (sw - swco + sg) * d2 - (1 - (sw - swco) / (sw - swco + sg)) / (sw - swco + sg) * a4 + (1 - (sw - swco) / (sw - swco + sg)) * d4,
      -((1 - (sw - swco) / (sw - swco + sg)) / (sw - swco + sg)) * a3 + (1 - (sw - swco) / (sw - swco + sg)) * d3, 0, 0, 0,
      -((sw - swco) / (sw - swco + sg) / (sw - swco + sg)) * a1 + (sw - swco) / (sw - swco + sg) * d1,
      -((sw - swco) / (sw - swco + sg) / (sw - swco + sg)) * a2 + (sw - swco) / (sw - swco + sg) * d2 + (sw - swco) / (sw - swco + sg) / (sw - swco + sg) * a4 + (1 - (sw - swco) / (sw - swco + sg)) * d4,
      (sw - swco) / (sw - swco + sg) / (sw - swco + sg) * a3 + (1 - (sw - swco) / (sw - swco + sg)) * d3], hkr, ?_, all_three ?_ ?_ ?_⟩
  · rw [dkrAt_eq, hkr, bind_ok, dkr_three hu]
    simp only [Funcs.dkr3, hu]
    rw [show rd (usageOf true true).pos Aqua = .ok 0 from rfl, bind_ok, hc, show rd (swco :: rest) 0 = .ok swco from rfl, bind_ok, max_eq_left h0.le, waterZone, show sg + sw - swco = sw - swco + sg by ring, max_eq_left hd.le,
      fdiv_ok dne, bind_ok, g1, bind_ok, g3, bind_ok, g2, bind_ok, g4, bind_ok, e1, bind_ok, e3, bind_ok, e2, bind_ok, e4, bind_ok, fdiv_ok dne, bind_ok, fdiv_ok dne, bind_ok, bind_ok]
    rfl
  · rw [(rowTimes_three ..).1]
    have S := X.mul L1 X0 b1
    refine (S.congr p (fun t ht => ?_)).as (by field_simp; ring)
    · obtain ⟨x1, x2, x3, x4, hx1, hx2, hx3, hx4, h⟩ := key t ht
      refine (krOf_three hu h).1.trans ?_
      rw [hx1]
      rfl
  · rw [(rowTimes_three ..).2.1]
    have S := (X.mul L2 X0 b2).add (Y.mul L4 Y0 b4)
    refine (S.congr p (fun t ht => ?_)).as (by field_simp; ring)
    · obtain ⟨x1, x2, x3, x4, hx1, hx2, hx3, hx4, h⟩ := key t ht
      refine (krOf_three hu h).2.1.trans ?_
      rw [hx2, hx4]
      rfl
  · rw [(rowTimes_three ..).2.2]
    have S := Y.mul L3 Y0 b3
    refine (S.congr p (fun t ht => ?_)).as (by field_simp; ring)
    · obtain ⟨x1, x2, x3, x4, hx1, hx2, hx3, hx4, h⟩ := key t ht
      refine (krOf_three hu h).2.2.trans ?_
      rw [hx3]
      rfl

/-- Three phases, Stone's second model: the slopes of the relative permeabilities of water and gas are those of the derivative.  The slope of the one of oil is not, unless the saturation of gas is
kept: the entry for oil and gas contains the term `krw (krog / krocw + krg) - krg'` (times `krocw`) in excess. -/
theorem stone2_derivative_partial {f : Funcs} (hu : f.usage = usageOf true true) {sw so sg vw vo vg kro krw krg krog dkrg : Rat} (hn : f.krocw ≠ 0) (h1 : Smooth f.krw sw) (h2 : Smooth f.krow (sw + sg)) (h3 : Smooth f.krg sg)
    (h4 : Smooth f.krog sg) (hw : f.krw.eval sw = .ok krw) (hg : f.krg.eval sg = .ok krg) (hog : f.krog.eval sg = .ok krog) (hdg : f.krg.derivative sg = .ok dkrg)
    (hk : f.krOf .stone2 1 [sw, so, sg] = .ok kro) (hp : 0 < kro) :
    ∃ v m, f.krAt .stone2 [sw, so, sg] = .ok v ∧ f.dkrAt .stone2 [sw, so, sg] = .ok (v, m) ∧
      SlopeAt (fun t => f.krOf .stone2 0 (along [sw, so, sg] [vw, vo, vg] t)) 0 (rowTimes 3 m [vw, vo, vg] 0) ∧
      SlopeAt (fun t => f.krOf .stone2 2 (along [sw, so, sg] [vw, vo, vg] t)) 0 (rowTimes 3 m [vw, vo, vg] 2) ∧
      SlopeAt (fun t => f.krOf .stone2 1 (along [sw, so, sg] [vw, vo, vg] t)) 0 (rowTimes 3 m [vw, vo, vg] 1 - f.krocw * (krw * (krog / f.krocw + krg) - dkrg) * vg) := by
  obtain ⟨d1, e1, s1⟩ := h1
  obtain ⟨d2, e2, s2⟩ := h2
  obtain ⟨d3, e3, s3⟩ := h3
  obtain ⟨d4, e4, s4⟩ := h4
  obtain ⟨krow, how⟩ := s2.value
  rw [e3] at hdg
  obtain rfl := Except.ok.inj hdg
  have L1 := s1.line vw
  have L2 : SlopeAt (fun t => f.krow.eval (sw + t * vw + (sg + t * vg))) 0 (d2 * (vw + vg)) := s2.path _ (fun t => by ring)
  have L3 := s3.line vg
  have L4 := s4.line vg
  have val : ∀ sw sg x1 x2 x3 x4 : Rat, f.krw.eval sw = .ok x1 → f.krow.eval (sw + sg) = .ok x2 → f.krg.eval sg = .ok x3 → f.krog.eval sg = .ok x4 →
      f.kr3 .stone2 sw sg = .ok (x1, clip (f.krocw * ((x2 / f.krocw + x1) * (x4 / f.krocw + x3) - x1 - x3)), x3) := by
    intro sw sg x1 x2 x3 x4 hx1 hx2 hx3 hx4
    simp only [Funcs.kr3]
    rw [hx1, bind_ok, hx3, bind_ok, hx2, bind_ok, hx4, bind_ok, stone, fdiv_ok hn, bind_ok, fdiv_ok hn, bind_ok, bind_ok]
  have v0 := val sw sg krw krow krg krog hw how hg hog
  have hkr := kr_three hu .stone2 sw so sg
  rw [v0, bind_ok] at hkr
  have c1 : (fun t => f.krw.eval (sw + t * vw)) 0 = .ok krw := by simpa using hw
  have c2 : (fun t => f.krow.eval (sw + t * vw + (sg + t * vg))) 0 = .ok krow := by simpa using how
  have c3 : (fun t => f.krg.eval (sg + t * vg)) 0 = .ok krg := by simpa using hg
  have c4 : (fun t => f.krog.eval (sg + t * vg)) 0 = .ok krog := by simpa using hog
  have A := (L2.smul (1 / f.krocw)).add L1
  have B := (L4.smul (1 / f.krocw)).add L3
  have O := (((A.mul B (v := 1 / f.krocw * krow + krw) (w := 1 / f.krocw * krog + krg) (by simp only [c1, c2, bind_ok]) (by simp only [c3, c4, bind_ok])).add (L1.smul (-1))).add (L3.smul (-1))).smul f.krocw
  obtain ⟨F, D, hF, hD, O⟩ : ∃ (F : Rat → M Rat) (D : Rat), (∀ t x1 x2 x3 x4, f.krw.eval (sw + t * vw) = .ok x1 → f.krow.eval (sw + t * vw + (sg + t * vg)) = .ok x2 → f.krg.eval (sg + t * vg) = .ok x3 →
      f.krog.eval (sg + t * vg) = .ok x4 → F t = .ok (f.krocw * ((x2 / f.krocw + x1) * (x4 / f.krocw + x3) - x1 - x3))) ∧
      D = f.krocw * ((d2 / f.krocw * (vw + vg) + d1 * vw) * (krog / f.krocw + krg) + (krow / f.krocw + krw) * (d4 / f.krocw * vg + d3 * vg) - d1 * vw - d3 * vg) ∧ SlopeAt F 0 D := by
    refine ⟨_, _, fun t x1 x2 x3 x4 hx1 hx2 hx3 hx4 => ?_, ?_, O⟩
    · simp only [hx1, hx2, hx3, hx4, bind_ok]
      congr 1
      ring
    · ring
  have F0 := hF 0 krw krow krg krog c1 c2 c3 c4
  have hpos : clip (f.krocw * ((krow / f.krocw + krw) * (krog / f.krocw + krg) - krw - krg)) = kro := Except.ok.inj ((krOf_three hu v0).2.1.symm.trans hk)
  have hkro : f.krocw * ((krow / f.krocw + krw) * (krog / f.krocw + krg) - krw - krg) = kro := by
    unfold clip at hpos
    split at hpos
    · linarith
    · exact hpos
  rw [hkro] at F0
  obtain ⟨δ1, p1, q1⟩ := L1.defined
  obtain ⟨δ2, p2, q2⟩ := L2.defined
  obtain ⟨δ3, p3, q3⟩ := L3.defined
  obtain ⟨δ4, p4, q4⟩ := L4.defined
  obtain ⟨δ5, p5, q5⟩ := clip_near O F0 hp
  have key : ∀ t, |t| < min δ1 (min δ2 (min δ3 (min δ4 δ5))) → ∃ x1 x3 o, f.krw.eval (sw + (0 + t) * vw) = .ok x1 ∧ f.krg.eval (sg + (0 + t) * vg) = .ok x3 ∧ F (0 + t) = .ok o ∧
      f.kr3 .stone2 (sw + (0 + t) * vw) (sg + (0 + t) * vg) = .ok (x1, o, x3) := by
    intro t ht
    simp only [lt_min_iff] at ht
    obtain ⟨t1, t2, t3, t4, t5⟩ := ht
    obtain ⟨x1, hx1⟩ := q1 t t1
    obtain ⟨x2, hx2⟩ := q2 t t2
    obtain ⟨x3, hx3⟩ := q3 t t3
    obtain ⟨x4, hx4⟩ := q4 t t4
    obtain ⟨o, ho, hc⟩ := q5 t t5
    have := hF (0 + t) x1 x2 x3 x4 hx1 hx2 hx3 hx4
    rw [this] at ho
    refine ⟨x1, x3, o, hx1, hx3, by rw [this, ho], ?_⟩
    rw [val _ _ x1 x2 x3 x4 hx1 hx2 hx3 hx4, Except.ok.inj ho, hc]
  have p : 0 < min δ1 (min δ2 (min δ3 (min δ4 δ5))) := lt_min p1 (lt_min p2 (lt_min p3 (lt_min p4 p5)))
  refine ⟨_, [d1, f.krocw * ((d2 / f.krocw + d1) * (krog / f.krocw + krg) - d1), 0, 0, 0, 0, 0,
    f.krocw * ((krow / f.krocw + krw) * (d4 / f.krocw + d3) - d3) + f.krocw * ((d2 / f.krocw + krw) * (krog / f.krocw + krg) - d3), d3], hkr, ?_, ?_, ?_, ?_⟩
  · rw [dkrAt_eq, hkr, bind_ok, dkr_three hu]
    simp only [Funcs.dkr3, hu]
    rw [hw, bind_ok, e1, bind_ok, hg, bind_ok, e3, bind_ok, how, bind_ok, e2, bind_ok, hog, bind_ok, e4, bind_ok, fdiv_ok hn, bind_ok, fdiv_ok hn, bind_ok, fdiv_ok hn, bind_ok, fdiv_ok hn, bind_ok, bind_ok]
    rfl
  · rw [(rowTimes_three ..).1]
    refine (L1.congr p (fun t ht => ?_)).as (by ring)
    obtain ⟨x1, x3, o, hx1, hx3, ho, h⟩ := key t ht
    exact (krOf_three hu h).1.trans hx1.symm
  · rw [(rowTimes_three ..).2.2]
    refine (L3.congr p (fun t ht => ?_)).as (by ring)
    obtain ⟨x1, x3, o, hx1, hx3, ho, h⟩ := key t ht
    exact (krOf_three hu h).2.2.trans hx3.symm
  · rw [(rowTimes_three ..).2.1]
    refine (O.congr p (fun t ht => ?_)).as (by rw [hD]; ring)
    obtain ⟨x1, x3, o, hx1, hx3, ho, h⟩ := key t ht
    exact (krOf_three hu h).2.1.trans ho.symm

end Opm.SatFunc
