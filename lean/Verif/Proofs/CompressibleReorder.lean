import Verif.Model.CompressibleReorder
import Verif.Spec.CompressibleReorder
import Verif.Proofs.TwophaseReorder
/-!
# Compressible two-phase transport by reordering: one cell
-/

namespace Opm.CompressibleReorder
open Opm
open Opm.TwophaseReorder (State cellFlux_both sum_faces faceFlow_other)

/-- The surface volume of a unit of water. -/
def bw (E : Env) (c : Nat) : Rat := E.A.getD (4 * c) 0

/-- What a face contributes. -/
def gain (E : Env) (ff : List Rat) (c f : Nat) : Bool → Rat
  | false => -(1 / bw E c * ∑ u ∈ Finset.range E.g.nc, E.g.faceFlow E.flux u c f * (bw E u * ff.getD u 0))
  | true => ∑ u ∈ Finset.range E.g.nc, E.g.faceFlow E.flux c u f

def view (r : Residual) : Bool → Rat
  | false => r.influx
  | true => r.outflux

theorem residualFace_ok {E : Env} (hv : E.g.Valid) (hfl : E.flux.length = E.g.nf) (hA : 4 * E.g.nc ≤ E.A.length) {ff : List Rat} {c i : Nat} (hc : c < E.g.nc) (hff : ff.length = E.g.nc)
    (h1 : E.g.cellFacepos.getD c 0 ≤ i) (h2 : i < E.g.cellFacepos.getD (c + 1) 0) (r : Residual) (hb : r.bcell = 1 / bw E c) :
    ∃ r', residualFace E ff c i r = .ok r' ∧ (r'.bcell = r.bcell ∧ r'.z0 = r.z0 ∧ r'.comp = r.comp ∧ r'.dtpv = r.dtpv) ∧
      ∀ k, view r' k = view r k + gain E ff c (E.g.cellFaces.getD i 0) k := by
  obtain ⟨f, hf, hlt⟩ := hv.face_at hc h2
  have ef : E.g.cellFaces.getD i 0 = f := by simp [List.getD_eq_getElem?_getD, hf]
  obtain ⟨other, e, hother⟩ := cellFlux_both hv hfl hlt (GridTopo.hasFace_of hv hc h1 h2 hf)
  unfold residualFace
  rw [rd_of_getElem? hf, bind_ok, e, bind_ok, ef]
  simp only
  rcases hother with ⟨rfl, hz⟩ | ⟨o, rfl, ho, hoc, hz, hi, hout⟩
  · rw [if_neg (by simp)]
    refine ⟨r, rfl, ⟨rfl, rfl, rfl, rfl⟩, fun k => ?_⟩
    match k with
    | false => simp [view, gain, hz]
    | true => simp [view, gain, hz]
  · have s1 : ∀ x : Nat → Rat, ∑ u ∈ Finset.range E.g.nc, E.g.faceFlow E.flux u c f * x u = max (-E.g.faceOut E.flux c f) 0 * x o := by
      intro x
      rw [Finset.sum_eq_single o (fun u _ hu => by rw [(hz u hu).1, zero_mul]) (fun h => absurd (Finset.mem_range.2 ho) h), hi]
    have s3 : ∑ u ∈ Finset.range E.g.nc, E.g.faceFlow E.flux c u f = max (E.g.faceOut E.flux c f) 0 := by
      rw [Finset.sum_eq_single o (fun u _ hu => (hz u hu).2) (fun h => absurd (Finset.mem_range.2 ho) h), hout]
    rw [if_pos (by omega)]
    by_cases hneg : E.g.faceOut E.flux c f < 0
    · rw [if_pos hneg, show (4 * (o : Int)) = ((4 * o : Nat) : Int) by push_cast; rfl, rdI_natCast, rd_of_getElem? (getElem?_getD (by omega)), bind_ok, rdI_natCast,
        rd_of_getElem? (getElem?_getD (by omega)), bind_ok]
      refine ⟨_, rfl, ⟨rfl, rfl, rfl, rfl⟩, fun k => ?_⟩
      have m1 : max (-E.g.faceOut E.flux c f) 0 = -E.g.faceOut E.flux c f := max_eq_left (by linarith)
      have m2 : max (E.g.faceOut E.flux c f) 0 = 0 := max_eq_right hneg.le
      match k with
      | false => simp only [view, gain]; rw [s1 (fun u => bw E u * ff.getD u 0), m1, hb]; unfold bw; ring
      | true => simp only [view, gain]; rw [s3, m2]; ring
    · rw [if_neg hneg]
      refine ⟨_, rfl, ⟨rfl, rfl, rfl, rfl⟩, fun k => ?_⟩
      have m1 : max (-E.g.faceOut E.flux c f) 0 = 0 := max_eq_right (by linarith)
      have m2 : max (E.g.faceOut E.flux c f) 0 = E.g.faceOut E.flux c f := max_eq_left (not_lt.1 hneg)
      match k with
      | false => simp only [view, gain]; rw [s1 (fun u => bw E u * ff.getD u 0), m1]; ring
      | true => simp only [view, gain]; rw [s3, m2]

/-- The share of water in the flow out of a cell. -/
def frac (E : Env) (c : Nat) (s : Rat) : Rat := fracFlow E s c

/-- The surface volume of water per pore volume before the step. -/
def before (E : Env) (c : Nat) : Rat := E.surfvol.getD (2 * c) 0

/-- The arguments fit together. -/
structure EnvOk (E : Env) : Prop where
  valid : E.g.Valid
  lenFlux : E.flux.length = E.g.nf
  lenPv0 : E.g.nc ≤ E.pv0.length
  lenPv : E.g.nc ≤ E.pv.length
  lenSrc : E.g.nc ≤ E.src.length
  lenA : 4 * E.g.nc ≤ E.A.length
  lenZ : 2 * E.g.nc ≤ E.surfvol.length
  pvPos : ∀ c < E.g.nc, 0 < E.pv0.getD c 0
  bPos : ∀ c < E.g.nc, 0 < bw E c
  zPos : ∀ c < E.g.nc, 0 ≤ before E c
  dtPos : 0 ≤ E.dt
  tolPos : 0 ≤ E.tol
  fracPos : ∀ c < E.g.nc, ∀ s, 0 ≤ s → s ≤ 1 → 0 ≤ frac E c s
  fracZero : ∀ c < E.g.nc, frac E c 0 = 0

/-- The residual of the specification. -/
abbrev R (E : Env) (c : Nat) (y : Nat → Rat) : Rat → Rat := surfaceResidual E.g E.flux E.pv0 E.pv E.src E.dt (bw E) (frac E) c (before E c) y

/-- The residual of the code is the residual of the specification. -/
theorem mkResidual_ok {E : Env} (h : EnvOk E) {s : State} {c : Nat} (hc : c < E.g.nc) (hff : s.ff.length = E.g.nc)
    (hup : ∀ u, E.g.FlowsTo E.flux u c → s.ff.getD u 0 = frac E u (s.sat.getD u 0)) :
    ∃ r, mkResidual E s.ff c = .ok r ∧ r.eval E c = R E c (fun u => s.sat.getD u 0) := by
  have hv := h.valid
  have hmono : E.g.cellFacepos.getD c 0 ≤ E.g.cellFacepos.getD (c + 1) 0 := Graph.ia_mono hv.csr (i := c) (j := c + 1) (by omega) hc
  have hb := (h.bPos c hc).ne'
  have hp := (h.pvPos c hc).ne'
  obtain ⟨r, e, ⟨r0, r1, r2, r4⟩, r3⟩ := forRange_sum (f := residualFace E s.ff c)
    (s := { bcell := 1 / bw E c, z0 := before E c, influx := if -E.src.getD c 0 < 0 then 1 / bw E c * -E.src.getD c 0 else 0, outflux := if ¬ -E.src.getD c 0 < 0 then -E.src.getD c 0 else 0, comp := (E.pv.getD c 0 - E.pv0.getD c 0) / E.pv0.getD c 0, dtpv := E.dt / E.pv0.getD c 0 }) hmono
    (fun a => a.bcell = 1 / bw E c ∧ a.z0 = before E c ∧ a.comp = (E.pv.getD c 0 - E.pv0.getD c 0) / E.pv0.getD c 0 ∧ a.dtpv = E.dt / E.pv0.getD c 0) view
    (fun i => gain E s.ff c (E.g.cellFaces.getD i 0)) ⟨rfl, rfl, rfl, rfl⟩
    (fun i a hi1 hi2 ha => by
      obtain ⟨a', e', b1, b3⟩ := residualFace_ok hv h.lenFlux h.lenA hc hff hi1 hi2 a ha.1
      exact ⟨a', e', ⟨by rw [b1.1, ha.1], by rw [b1.2.1, ha.2.1], by rw [b1.2.2.1, ha.2.2.1], by rw [b1.2.2.2, ha.2.2.2]⟩, b3⟩)
  unfold mkResidual Reorder.cellLoop
  rw [rd_of_getElem? (getElem?_getD (by have := h.lenZ; omega)), bind_ok, rd_of_getElem? (getElem?_getD (by have := h.lenA; omega)), bind_ok, fdiv, if_neg (show ¬E.A.getD (4 * c) 0 = 0 from hb), bind_ok,
    rd_of_getElem? (getElem?_getD (by have := h.lenSrc; omega)), bind_ok]
  simp only
  rw [rd_of_getElem? (getElem?_getD (by have := h.lenPv; omega)), bind_ok, rd_of_getElem? (getElem?_getD (by have := h.lenPv0; omega)), bind_ok, fdiv, if_neg hp, bind_ok,
    fdiv, if_neg hp, bind_ok]
  rw [rd_of_getElem? (Graph.ia_get hv.csr (by omega)), bind_ok, rd_of_getElem? (Graph.ia_get hv.csr (i := c + 1) hc), bind_ok]
  refine ⟨r, e, funext fun x => ?_⟩
  have g1 := r3 false
  have g2 := r3 true
  simp only [view] at g1 g2
  rw [sum_faces hv hc (fun f => gain E s.ff c f false) (fun f hf => by simp [gain, faceFlow_other hf])] at g1
  rw [sum_faces hv hc (fun f => gain E s.ff c f true) (fun f hf => by simp [gain, faceFlow_other hf])] at g2
  have q1 : ∑ f ∈ Finset.range E.g.nf, gain E s.ff c f false = -(1 / bw E c * ∑ u ∈ Finset.range E.g.nc, E.g.flowRate E.flux u c * bw E u * frac E u (s.sat.getD u 0)) := by
    simp only [gain, Finset.sum_neg_distrib]
    rw [← Finset.mul_sum, Finset.sum_comm]
    congr 2
    refine Finset.sum_congr rfl fun u _ => ?_
    rw [← Finset.sum_mul]
    change E.g.flowRate E.flux u c * _ = _
    by_cases hu : E.g.FlowsTo E.flux u c
    · rw [hup u hu, mul_assoc]
    · rw [Tof.flowRate_zero h.lenFlux hu, zero_mul, zero_mul, zero_mul]
  have q2 : ∑ f ∈ Finset.range E.g.nf, gain E s.ff c f true = E.g.interiorOut E.flux c := by
    simp only [gain]
    rw [Finset.sum_comm]
    rfl
  have i1 : (if -E.src.getD c 0 < 0 then 1 / bw E c * -E.src.getD c 0 else 0) = -(1 / bw E c * max (E.src.getD c 0) 0) := by
    split
    · rw [max_eq_left (by linarith)]; ring
    · rw [max_eq_right (by linarith), mul_zero, neg_zero]
  have i2 : (if ¬ -E.src.getD c 0 < 0 then -E.src.getD c 0 else 0) = max (-E.src.getD c 0) 0 := by
    split
    · rw [max_eq_left (by linarith)]
    · rename_i hn
      rw [not_not] at hn
      rw [max_eq_right (by linarith)]
  rw [q1, i1] at g1
  rw [q2, i2] at g2
  unfold Residual.eval R surfaceResidual surfaceBalance
  rw [r0, r1, r2, r4, g1, g2]
  unfold frac
  field_simp
  ring

/-- Without water in the cell the balance does not exceed zero. -/
theorem residual_zero {E : Env} (h : EnvOk E) {c : Nat} (hc : c < E.g.nc) {y : Nat → Rat} (hy : ∀ u, E.g.FlowsTo E.flux u c → 0 ≤ y u ∧ y u ≤ 1) : R E c y 0 ≤ 0 := by
  have hp := h.pvPos c hc
  have hb := h.bPos c hc
  unfold R surfaceResidual surfaceBalance
  refine div_nonpos_of_nonpos_of_nonneg ?_ (mul_pos hp hb).le
  rw [h.fracZero c hc]
  have hs : 0 ≤ ∑ u ∈ Finset.range E.g.nc, E.g.flowRate E.flux u c * bw E u * frac E u (y u) := by
    refine Finset.sum_nonneg fun u hu => ?_
    by_cases hf : E.g.FlowsTo E.flux u c
    · exact mul_nonneg (mul_nonneg (Tof.flowRate_nonneg (g := E.g) (flux := E.flux) u c) (h.bPos u (Finset.mem_range.1 hu)).le) (h.fracPos u (Finset.mem_range.1 hu) (y u) (hy u hf).1 (hy u hf).2)
    · rw [Tof.flowRate_zero h.lenFlux hf, zero_mul, zero_mul]
  have hz := mul_nonneg hp.le (h.zPos c hc)
  have hd := mul_nonneg h.dtPos (add_nonneg hs (le_max_right (E.src.getD c 0) 0))
  linarith

/-- The residual only depends on the cells upstream. -/
theorem residual_congr {E : Env} (hfl : E.flux.length = E.g.nf) {c : Nat} {y z : Nat → Rat} (hy : ∀ u, E.g.FlowsTo E.flux u c → y u = z u) : R E c y = R E c z := by
  funext s
  unfold R surfaceResidual surfaceBalance
  have : ∑ u ∈ Finset.range E.g.nc, E.g.flowRate E.flux u c * bw E u * frac E u (y u) = ∑ u ∈ Finset.range E.g.nc, E.g.flowRate E.flux u c * bw E u * frac E u (z u) := by
    refine Finset.sum_congr rfl fun u _ => ?_
    by_cases hu : E.g.FlowsTo E.flux u c
    · rw [hy u hu]
    · rw [Tof.flowRate_zero hfl hu, zero_mul, zero_mul, zero_mul]
  rw [this]

/-- The root finder runs out of iterations on the equation of the cell. -/
def RanOut (E : Env) (s0 : Rat) (R : Rat → Rat) : Prop :=
  ∃ r k, RootFinders.solveGuess .warnAndContinue R s0 0 1 E.maxit E.tol = .ok r ∧ r.iterations = some k ∧ E.maxit < (k : Int)

/-- The saturation solves the equation of cell `c`, or there is more water than the cell can hold, or the iterations ran out on this equation. -/
def Solved (E : Env) (c : Nat) (s0 : Rat) (y : Nat → Rat) (s : Rat) : Prop :=
  NearZero E.tol (R E c y) s0 s ∨ R E c y 1 < 0 ∨ RanOut E s0 (R E c y)

/-- The vectors have one entry per cell. -/
structure Fits (E : Env) (s : State) : Prop where
  sat : s.sat.length = E.g.nc
  ff : s.ff.length = E.g.nc

/-- Cell `d` is the same in both states. -/
def SameAt (s t : State) (d : Nat) : Prop := t.sat.getD d 0 = s.sat.getD d 0 ∧ t.ff.getD d 0 = s.ff.getD d 0

theorem solveSingleCell_ok {E : Env} (h : EnvOk E) {s : State} {c : Nat} (hc : c < E.g.nc) (hs : Fits E s)
    (hup : ∀ u, E.g.FlowsTo E.flux u c → (0 ≤ s.sat.getD u 0 ∧ s.sat.getD u 0 ≤ 1) ∧ s.ff.getD u 0 = frac E u (s.sat.getD u 0)) (h0 : 0 ≤ s.sat.getD c 0) (h1 : s.sat.getD c 0 ≤ 1) :
    ∃ s', solveSingleCell E c s = .ok s' ∧ Fits E s' ∧ (∀ d, d ≠ c → SameAt s s' d) ∧ (0 ≤ s'.sat.getD c 0 ∧ s'.sat.getD c 0 ≤ 1) ∧
      s'.ff.getD c 0 = frac E c (s'.sat.getD c 0) ∧ Solved E c (s.sat.getD c 0) (fun u => s.sat.getD u 0) (s'.sat.getD c 0) := by
  obtain ⟨r, e, hr⟩ := mkResidual_ok h hc hs.ff (fun u hu => (hup u hu).2)
  have b0 := residual_zero h hc (y := fun u => s.sat.getD u 0) (fun u hu => (hup u hu).1)
  have hbt : ∀ x : Rat, RootFinders.Between 0 1 x ↔ 0 ≤ x ∧ x ≤ 1 := by
    intro x
    unfold RootFinders.Between
    rw [min_eq_left (by norm_num), max_eq_right (by norm_num)]
  unfold solveSingleCell
  rw [e, bind_ok, rd_of_getElem? (getElem?_getD (by rw [hs.sat]; exact hc)), bind_ok, hr]
  rcases RootFinders.regula_falsi_guess_bracket .warnAndContinue (R E c (fun u => s.sat.getD u 0))
    (s.sat.getD c 0) 0 1 ((hbt _).2 ⟨h0, h1⟩) E.maxit E.tol h.tolPos with ⟨res, e2, hgood⟩ | ⟨hp, _⟩
  · rw [e2, bind_ok, wr_ok (by rw [hs.sat]; exact hc), bind_ok, wr_ok (by rw [hs.ff]; exact hc), bind_ok]
    have g1 : (s.sat.set c res.value).getD c 0 = res.value := by
      simp [List.getD_eq_getElem?_getD, hs.sat, hc]
    have g2 : (s.ff.set c (fracFlow E res.value c)).getD c 0 = fracFlow E res.value c := by
      simp [List.getD_eq_getElem?_getD, hs.ff, hc]
    refine ⟨_, rfl, ⟨by simp [hs.sat], by simp [hs.ff]⟩, fun d hd => ?_, ?_, ?_, ?_⟩
    · unfold SameAt
      simp [List.getD_eq_getElem?_getD, Ne.symm hd]
    · simp only [g1]
      exact (hbt _).1 hgood.value
    · simp only [g1, g2]
      rfl
    · simp only [g1]
      unfold Solved NearZero
      rcases hgood.why with hw | ⟨x0, x1, hx0, hx1, hf, hwid, hval⟩ | ⟨-, hw | ⟨n, hn, hlt⟩⟩
      · exact .inl (.inl hw)
      · refine .inl (.inr ⟨x0, x1, (hbt _).1 hx0, (hbt _).1 hx1, hf, ?_, hval⟩)
        refine lt_of_lt_of_eq hwid ?_
        unfold RootFinders.eps RootFinders.macheps
        norm_num
      · refine .inr (.inl ?_)
        by_contra hn
        exact absurd hw (not_lt.2 (mul_nonpos_of_nonpos_of_nonneg b0 (not_lt.1 hn)))
      · exact .inr (.inr ⟨res, n, e2, hn, hlt⟩)
  · cases hp

end Opm.CompressibleReorder
