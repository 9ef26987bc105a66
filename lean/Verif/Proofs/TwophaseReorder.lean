import Verif.Model.TwophaseReorder
import Verif.Spec.TwophaseReorder
import Verif.Proofs.Tof
import Verif.Props.RootFinders
import Mathlib.Tactic.FieldSimp
/-!
# Two-phase transport by reordering: one cell
-/

namespace Opm.TwophaseReorder
open Opm

variable {g : GridTopo} {flux : List Rat}

/-- The face seen from the cell, with the flows through it in both directions. -/
theorem cellFlux_both (hv : g.Valid) (hfl : flux.length = g.nf) {c f : Nat} (hf : f < g.nf) (hh : g.HasFace c f) :
    ∃ other, Tof.cellFlux g flux c f = .ok (g.faceOut flux c f, other) ∧
      ((other = -1 ∧ ∀ u : Nat, g.faceFlow flux u c f = 0 ∧ g.faceFlow flux c u f = 0) ∨
        ∃ o : Nat, other = o ∧ o < g.nc ∧ o ≠ c ∧ (∀ u : Nat, u ≠ o → g.faceFlow flux u c f = 0 ∧ g.faceFlow flux c u f = 0) ∧
          g.faceFlow flux o c f = max (-g.faceOut flux c f) 0 ∧ g.faceFlow flux c o f = max (g.faceOut flux c f) 0) := by
  obtain ⟨a, b, hs⟩ := hv.sides hf
  obtain ⟨ra, rb⟩ := hv.side_range hs
  have hq : flux[f]? = some (flux.getD f 0) := getElem?_getD (by omega)
  unfold Tof.cellFlux GridTopo.faceOut GridTopo.faceFlow
  rw [rd_of_getElem? hs.1, bind_ok, rd_of_getElem? hq, bind_ok]
  simp only [hs.1, hs.2, Option.some.injEq]
  by_cases hac : (c : Int) = a
  · subst hac
    have hne := hv.distinct f _ _ hs (by omega)
    rw [if_pos rfl, rd_of_getElem? hs.2, bind_ok, if_pos rfl, if_neg hne.symm, sub_zero]
    refine ⟨b, rfl, ?_⟩
    rcases rb with rfl | rb
    · refine .inl ⟨rfl, fun u => ?_⟩
      rw [if_neg (by omega), if_neg (by omega), if_neg (by omega), if_neg (by omega)]
      exact ⟨rfl, rfl⟩
    · obtain ⟨o, rfl⟩ : ∃ o : Nat, b = o := ⟨b.toNat, by omega⟩
      refine .inr ⟨o, rfl, by omega, by omega, fun u hu => ?_, ?_, ?_⟩
      · rw [if_neg (by omega), if_neg (by omega), if_neg (by omega), if_neg (by omega)]
        exact ⟨rfl, rfl⟩
      · rw [if_neg (by omega), if_pos ⟨rfl, rfl⟩]
      · rw [if_pos ⟨rfl, rfl⟩]
  · have hbc : b = (c : Int) := by
      rcases (hv.agree c f a b hs).1 hh with h | h
      · exact absurd h.symm hac
      · exact h
    subst hbc
    rw [if_neg hac, if_neg (fun h => hac h.symm), if_pos rfl, zero_sub]
    refine ⟨a, rfl, ?_⟩
    rcases ra with rfl | ra
    · refine .inl ⟨rfl, fun u => ?_⟩
      rw [if_neg (by omega), if_neg (by omega), if_neg (by omega), if_neg (by omega)]
      exact ⟨rfl, rfl⟩
    · obtain ⟨o, rfl⟩ : ∃ o : Nat, a = o := ⟨a.toNat, by omega⟩
      refine .inr ⟨o, rfl, by omega, by omega, fun u hu => ?_, ?_, ?_⟩
      · rw [if_neg (by omega), if_neg (by omega), if_neg (by omega), if_neg (by omega)]
        exact ⟨rfl, rfl⟩
      · rw [if_pos ⟨rfl, rfl⟩, neg_neg]
      · rw [if_neg (by omega), if_pos ⟨rfl, rfl⟩]

/-- The sum over the faces of a cell of something that vanishes for other faces. -/
theorem sum_faces (hv : g.Valid) {c : Nat} (hc : c < g.nc) (h : Nat → Rat)
    (h0 : ∀ f, ¬(g.faceCells[2 * f]? = some (c : Int) ∨ g.faceCells[2 * f + 1]? = some (c : Int)) → h f = 0) :
    ∑ i ∈ Finset.Ico (g.cellFacepos.getD c 0) (g.cellFacepos.getD (c + 1) 0), h (g.cellFaces.getD i 0) = ∑ f ∈ Finset.range g.nf, h f := by
  rw [GridTopo.sum_row hv hc h, Finset.sum_filter]
  refine Finset.sum_congr rfl fun f _ => ?_
  split
  · rfl
  · rename_i hn
    rw [h0 f hn]

theorem faceFlow_other {c f : Nat} (h : ¬(g.faceCells[2 * f]? = some (c : Int) ∨ g.faceCells[2 * f + 1]? = some (c : Int))) (u : Nat) :
    g.faceFlow flux u c f = 0 ∧ g.faceFlow flux c u f = 0 := by
  unfold GridTopo.faceFlow
  rw [if_neg (fun h' => h (.inr h'.2)), if_neg (fun h' => h (.inl h'.1)), if_neg (fun h' => h (.inl h'.1)), if_neg (fun h' => h (.inr h'.2))]
  exact ⟨rfl, rfl⟩

/-- What a face contributes. -/
def gain (g : GridTopo) (flux ff : List Rat) (c f : Nat) : Option Bool → Rat
  | none => -∑ u ∈ Finset.range g.nc, g.faceFlow flux u c f * ff.getD u 0
  | some true => ∑ u ∈ Finset.range g.nc, g.faceFlow flux c u f
  | some false => ∑ u ∈ Finset.range g.nc, g.faceFlow flux u c f - ∑ u ∈ Finset.range g.nc, g.faceFlow flux c u f

def view (r : Residual) : Option Bool → Rat
  | none => r.influx
  | some true => r.outflux
  | some false => r.comp

theorem residualFace_ok {E : Env} (hv : E.g.Valid) (hfl : E.flux.length = E.g.nf) {ff : List Rat} {c i : Nat} (hc : c < E.g.nc) (hff : ff.length = E.g.nc)
    (h1 : E.g.cellFacepos.getD c 0 ≤ i) (h2 : i < E.g.cellFacepos.getD (c + 1) 0) (r : Residual) :
    ∃ r', residualFace E ff c i r = .ok r' ∧ (r'.s0 = r.s0 ∧ r'.dtpv = r.dtpv) ∧ ∀ k, view r' k = view r k + gain E.g E.flux ff c (E.g.cellFaces.getD i 0) k := by
  obtain ⟨f, hf, hlt⟩ := hv.face_at hc h2
  have ef : E.g.cellFaces.getD i 0 = f := by simp [List.getD_eq_getElem?_getD, hf]
  obtain ⟨other, e, hother⟩ := cellFlux_both hv hfl hlt (GridTopo.hasFace_of hv hc h1 h2 hf)
  unfold residualFace
  rw [rd_of_getElem? hf, bind_ok, e, bind_ok, ef]
  simp only
  rcases hother with ⟨rfl, hz⟩ | ⟨o, rfl, ho, hoc, hz, hi, hout⟩
  · rw [if_neg (by simp)]
    refine ⟨r, rfl, ⟨rfl, rfl⟩, fun k => ?_⟩
    match k with
    | none => simp [view, gain, hz]
    | some true => simp [view, gain, hz]
    | some false => simp [view, gain, hz]
  · have s1 : ∀ x : Nat → Rat, ∑ u ∈ Finset.range E.g.nc, E.g.faceFlow E.flux u c f * x u = max (-E.g.faceOut E.flux c f) 0 * x o := by
      intro x
      rw [Finset.sum_eq_single o (fun u _ hu => by rw [(hz u hu).1, zero_mul]) (fun h => absurd (Finset.mem_range.2 ho) h), hi]
    have s2 : ∑ u ∈ Finset.range E.g.nc, E.g.faceFlow E.flux u c f = max (-E.g.faceOut E.flux c f) 0 := by
      rw [Finset.sum_eq_single o (fun u _ hu => (hz u hu).1) (fun h => absurd (Finset.mem_range.2 ho) h), hi]
    have s3 : ∑ u ∈ Finset.range E.g.nc, E.g.faceFlow E.flux c u f = max (E.g.faceOut E.flux c f) 0 := by
      rw [Finset.sum_eq_single o (fun u _ hu => (hz u hu).2) (fun h => absurd (Finset.mem_range.2 ho) h), hout]
    rw [if_pos (by omega)]
    by_cases hneg : E.g.faceOut E.flux c f < 0
    · rw [if_pos hneg, rdI_natCast, rd_of_getElem? (getElem?_getD (by omega)), bind_ok]
      refine ⟨_, rfl, ⟨rfl, rfl⟩, fun k => ?_⟩
      have m1 : max (-E.g.faceOut E.flux c f) 0 = -E.g.faceOut E.flux c f := max_eq_left (by linarith)
      have m2 : max (E.g.faceOut E.flux c f) 0 = 0 := max_eq_right hneg.le
      match k with
      | none => simp only [view, gain]; rw [s1 (fun u => ff.getD u 0), m1]; ring
      | some true => simp only [view, gain]; rw [s3, m2]; ring
      | some false => simp only [view, gain]; rw [s2, s3, m1, m2]; ring
    · rw [if_neg hneg]
      refine ⟨_, rfl, ⟨rfl, rfl⟩, fun k => ?_⟩
      have m1 : max (-E.g.faceOut E.flux c f) 0 = 0 := max_eq_right (by linarith)
      have m2 : max (E.g.faceOut E.flux c f) 0 = E.g.faceOut E.flux c f := max_eq_left (not_lt.1 hneg)
      match k with
      | none => simp only [view, gain]; rw [s1 (fun u => ff.getD u 0), m1]; ring
      | some true => simp only [view, gain]; rw [s3, m2]
      | some false => simp only [view, gain]; rw [s2, s3, m1, m2]; ring

/-- The share of water in the flow out of a cell. -/
def frac (E : Env) (c : Nat) (s : Rat) : Rat := fracFlow E.fluid s c

/-- The arguments fit together. -/
structure EnvOk (E : Env) : Prop where
  valid : E.g.Valid
  lenFlux : E.flux.length = E.g.nf
  lenPv : E.g.nc ≤ E.pv.length
  lenSrc : E.g.nc ≤ E.src.length
  pvPos : ∀ c < E.g.nc, 0 < E.pv.getD c 0
  dtPos : 0 ≤ E.dt
  tolPos : 0 ≤ E.tol
  proper : ProperFractions (frac E)

/-- The residual of the code is the residual of the specification. -/
theorem mkResidual_ok {E : Env} (h : EnvOk E) {s : State} {c : Nat} (hc : c < E.g.nc) (hs : s.sat.length = E.g.nc) (hff : s.ff.length = E.g.nc)
    (hup : ∀ u, E.g.FlowsTo E.flux u c → s.ff.getD u 0 = frac E u (s.sat.getD u 0)) :
    ∃ r, mkResidual E s c = .ok r ∧ r.eval E.fluid c = waterResidual E.g E.flux E.pv E.src E.dt (frac E) c (s.sat.getD c 0) (fun u => s.sat.getD u 0) := by
  have hv := h.valid
  have hmono : E.g.cellFacepos.getD c 0 ≤ E.g.cellFacepos.getD (c + 1) 0 := Graph.ia_mono hv.csr (i := c) (j := c + 1) (by omega) hc
  obtain ⟨r, e, ⟨r1, r2⟩, r3⟩ := forRange_sum (f := residualFace E s.ff c)
    (s := { s0 := s.sat.getD c 0, influx := if -E.src.getD c 0 < 0 then -E.src.getD c 0 else 0, outflux := if ¬ -E.src.getD c 0 < 0 then -E.src.getD c 0 else 0, comp := E.src.getD c 0, dtpv := E.dt / E.pv.getD c 0 }) hmono
    (fun a => a.s0 = s.sat.getD c 0 ∧ a.dtpv = E.dt / E.pv.getD c 0) view
    (fun i => gain E.g E.flux s.ff c (E.g.cellFaces.getD i 0)) ⟨rfl, rfl⟩
    (fun i a hi1 hi2 ha => by
      obtain ⟨a', e', b1, b3⟩ := residualFace_ok hv h.lenFlux hc hff hi1 hi2 a
      exact ⟨a', e', ⟨by rw [b1.1, ha.1], by rw [b1.2, ha.2]⟩, b3⟩)
  unfold mkResidual Reorder.cellLoop
  rw [rd_of_getElem? (getElem?_getD (by omega)), bind_ok, rd_of_getElem? (getElem?_getD (by have := h.lenSrc; omega)), bind_ok,
    rd_of_getElem? (getElem?_getD (by have := h.lenPv; omega)), bind_ok, fdiv, if_neg (h.pvPos c hc).ne', bind_ok]
  simp only
  rw [rd_of_getElem? (Graph.ia_get hv.csr (by omega)), bind_ok, rd_of_getElem? (Graph.ia_get hv.csr (i := c + 1) hc), bind_ok, e]
  refine ⟨r, rfl, funext fun x => ?_⟩
  have g1 := r3 none
  have g2 := r3 (some true)
  have g3 := r3 (some false)
  simp only [view] at g1 g2 g3
  rw [sum_faces hv hc (fun f => gain E.g E.flux s.ff c f none) (fun f hf => by simp [gain, faceFlow_other hf])] at g1
  rw [sum_faces hv hc (fun f => gain E.g E.flux s.ff c f (some true)) (fun f hf => by simp [gain, faceFlow_other hf])] at g2
  rw [sum_faces hv hc (fun f => gain E.g E.flux s.ff c f (some false)) (fun f hf => by simp [gain, faceFlow_other hf])] at g3
  have q1 : ∑ f ∈ Finset.range E.g.nf, gain E.g E.flux s.ff c f none = -∑ u ∈ Finset.range E.g.nc, E.g.flowRate E.flux u c * frac E u (s.sat.getD u 0) := by
    simp only [gain, Finset.sum_neg_distrib]
    rw [Finset.sum_comm]
    congr 1
    refine Finset.sum_congr rfl fun u _ => ?_
    rw [← Finset.sum_mul]
    change E.g.flowRate E.flux u c * _ = _
    by_cases hu : E.g.FlowsTo E.flux u c
    · rw [hup u hu]
    · rw [Tof.flowRate_zero h.lenFlux hu, zero_mul, zero_mul]
  have q2 : ∑ f ∈ Finset.range E.g.nf, gain E.g E.flux s.ff c f (some true) = E.g.interiorOut E.flux c := by
    simp only [gain]
    rw [Finset.sum_comm]
    rfl
  have q3 : ∑ f ∈ Finset.range E.g.nf, gain E.g E.flux s.ff c f (some false) = E.g.interiorIn E.flux c - E.g.interiorOut E.flux c := by
    simp only [gain]
    rw [Finset.sum_sub_distrib, Finset.sum_comm, Finset.sum_comm (f := fun f u => E.g.faceFlow E.flux c u f)]
    rfl
  have i1 : (if -E.src.getD c 0 < 0 then -E.src.getD c 0 else 0) = -max (E.src.getD c 0) 0 := by
    split
    · rw [max_eq_left (by linarith)]
    · rw [max_eq_right (by linarith), neg_zero]
  have i2 : (if ¬ -E.src.getD c 0 < 0 then -E.src.getD c 0 else 0) = max (-E.src.getD c 0) 0 := by
    split
    · rw [max_eq_left (by linarith)]
    · rename_i hn
      rw [not_not] at hn
      rw [max_eq_right (by linarith)]
  rw [q1, i1] at g1
  rw [q2, i2] at g2
  rw [q3] at g3
  unfold Residual.eval waterResidual
  rw [r1, r2, g1, g2, g3]
  unfold frac
  ring

theorem flowRate_le {E : Env} (h : ProperFractions (frac E)) {c : Nat} {y : Nat → Rat} (hy : ∀ u, E.g.FlowsTo E.flux u c → 0 ≤ y u ∧ y u ≤ 1) (hfl : E.flux.length = E.g.nf) :
    0 ≤ ∑ u ∈ Finset.range E.g.nc, E.g.flowRate E.flux u c * frac E u (y u) ∧
      ∑ u ∈ Finset.range E.g.nc, E.g.flowRate E.flux u c * frac E u (y u) ≤ E.g.interiorIn E.flux c := by
  have key : ∀ u, 0 ≤ E.g.flowRate E.flux u c * frac E u (y u) ∧ E.g.flowRate E.flux u c * frac E u (y u) ≤ E.g.flowRate E.flux u c := by
    intro u
    by_cases hu : E.g.FlowsTo E.flux u c
    · have := h.range u (y u) (hy u hu).1 (hy u hu).2
      have hn := Tof.flowRate_nonneg (g := E.g) (flux := E.flux) u c
      exact ⟨mul_nonneg hn this.1, by nlinarith⟩
    · rw [Tof.flowRate_zero hfl hu, zero_mul]
      exact ⟨le_refl _, le_refl _⟩
  exact ⟨Finset.sum_nonneg fun u _ => (key u).1, Finset.sum_le_sum fun u _ => (key u).2⟩

/-- The end points bracket a zero. -/
theorem bracketed {E : Env} (h : EnvOk E) {c : Nat} (hc : c < E.g.nc) {y : Nat → Rat} (hy : ∀ u, E.g.FlowsTo E.flux u c → 0 ≤ y u ∧ y u ≤ 1) {s0 : Rat} (h0 : 0 ≤ s0) (h1 : s0 ≤ 1) :
    waterResidual E.g E.flux E.pv E.src E.dt (frac E) c s0 y 0 ≤ 0 ∧ 0 ≤ waterResidual E.g E.flux E.pv E.src E.dt (frac E) c s0 y 1 := by
  obtain ⟨b1, b2⟩ := flowRate_le h.proper hy h.lenFlux
  have hd : 0 ≤ E.dt / E.pv.getD c 0 := div_nonneg h.dtPos (h.pvPos c hc).le
  unfold waterResidual
  rw [h.proper.zero, h.proper.one]
  have m0 : 0 ≤ max (E.src.getD c 0) 0 := le_max_right _ _
  have m1 : max (-E.src.getD c 0) 0 - max (E.src.getD c 0) 0 + E.src.getD c 0 = 0 := by
    rcases le_total (E.src.getD c 0) 0 with hq | hq
    · rw [max_eq_left (by linarith), max_eq_right hq]; ring
    · rw [max_eq_right (by linarith), max_eq_left hq]; ring
  constructor
  · have : 0 ≤ E.dt / E.pv.getD c 0 * (∑ u ∈ Finset.range E.g.nc, E.g.flowRate E.flux u c * frac E u (y u) + max (E.src.getD c 0) 0) := mul_nonneg hd (by linarith)
    linarith
  · have : 0 ≤ E.dt / E.pv.getD c 0 * ((E.g.interiorOut E.flux c + max (-E.src.getD c 0) 0) * 1
      - (∑ u ∈ Finset.range E.g.nc, E.g.flowRate E.flux u c * frac E u (y u) + max (E.src.getD c 0) 0)
      + 1 * (E.src.getD c 0 - (E.g.interiorOut E.flux c - E.g.interiorIn E.flux c))) := mul_nonneg hd (by linarith)
    linarith

/-- The residual only depends on the cells upstream. -/
theorem residual_congr {E : Env} (hfl : E.flux.length = E.g.nf) {c : Nat} {y z : Nat → Rat} (hy : ∀ u, E.g.FlowsTo E.flux u c → y u = z u) (s0 : Rat) :
    waterResidual E.g E.flux E.pv E.src E.dt (frac E) c s0 y = waterResidual E.g E.flux E.pv E.src E.dt (frac E) c s0 z := by
  funext s
  unfold waterResidual
  have : ∑ u ∈ Finset.range E.g.nc, E.g.flowRate E.flux u c * frac E u (y u) = ∑ u ∈ Finset.range E.g.nc, E.g.flowRate E.flux u c * frac E u (z u) := by
    refine Finset.sum_congr rfl fun u _ => ?_
    by_cases hu : E.g.FlowsTo E.flux u c
    · rw [hy u hu]
    · rw [Tof.flowRate_zero hfl hu, zero_mul, zero_mul]
  rw [this]

/-- The root finder runs out of iterations on the equation of the cell. -/
def RanOut (E : Env) (s0 : Rat) (R : Rat → Rat) : Prop :=
  ∃ r k, RootFinders.solveGuess .warnAndContinue R s0 0 1 E.maxit E.tol = .ok r ∧ r.iterations = some k ∧ E.maxit < (k : Int)

/-- The saturation solves the equation of cell `c`, or the iterations ran out on this equation. -/
def Solved (E : Env) (c : Nat) (s0 : Rat) (y : Nat → Rat) (s : Rat) (n : Nat) : Prop :=
  NearZero E.tol (waterResidual E.g E.flux E.pv E.src E.dt (frac E) c s0 y) s0 s ∨
    (RanOut E s0 (waterResidual E.g E.flux E.pv E.src E.dt (frac E) c s0 y) ∧ E.maxit < n)

/-- The vectors have one entry per cell. -/
structure Fits (E : Env) (s : State) : Prop where
  sat : s.sat.length = E.g.nc
  ff : s.ff.length = E.g.nc
  iters : s.iters.length = E.g.nc

/-- Cell `d` is the same in both states. -/
def SameAt (s t : State) (d : Nat) : Prop := t.sat.getD d 0 = s.sat.getD d 0 ∧ t.ff.getD d 0 = s.ff.getD d 0 ∧ t.iters.getD d 0 = s.iters.getD d 0

theorem solveSingleCell_ok {E : Env} (h : EnvOk E) {s : State} {c : Nat} (hc : c < E.g.nc) (hs : Fits E s)
    (hup : ∀ u, E.g.FlowsTo E.flux u c → (0 ≤ s.sat.getD u 0 ∧ s.sat.getD u 0 ≤ 1) ∧ s.ff.getD u 0 = frac E u (s.sat.getD u 0)) (h0 : 0 ≤ s.sat.getD c 0) (h1 : s.sat.getD c 0 ≤ 1) :
    ∃ s', solveSingleCell E c s = .ok s' ∧ Fits E s' ∧ (∀ d, d ≠ c → SameAt s s' d) ∧ (0 ≤ s'.sat.getD c 0 ∧ s'.sat.getD c 0 ≤ 1) ∧
      s'.ff.getD c 0 = frac E c (s'.sat.getD c 0) ∧ s.iters.getD c 0 ≤ s'.iters.getD c 0 ∧
      Solved E c (s.sat.getD c 0) (fun u => s.sat.getD u 0) (s'.sat.getD c 0) (s'.iters.getD c 0) := by
  obtain ⟨r, e, hr⟩ := mkResidual_ok h hc hs.sat hs.ff (fun u hu => (hup u hu).2)
  obtain ⟨b0, b1⟩ := bracketed h hc (y := fun u => s.sat.getD u 0) (fun u hu => (hup u hu).1) h0 h1
  have hbt : ∀ x : Rat, RootFinders.Between 0 1 x ↔ 0 ≤ x ∧ x ≤ 1 := by
    intro x
    unfold RootFinders.Between
    rw [min_eq_left (by norm_num), max_eq_right (by norm_num)]
  have hit : s.iters[c]? = some (s.iters.getD c 0) := by
    have : c < s.iters.length := by rw [hs.iters]; exact hc
    simp [List.getD_eq_getElem?_getD, this]
  unfold solveSingleCell
  rw [e, bind_ok, rd_of_getElem? (getElem?_getD (by rw [hs.sat]; exact hc)), bind_ok, hr]
  rcases RootFinders.regula_falsi_guess_bracket .warnAndContinue (waterResidual E.g E.flux E.pv E.src E.dt (frac E) c (s.sat.getD c 0) (fun u => s.sat.getD u 0))
    (s.sat.getD c 0) 0 1 ((hbt _).2 ⟨h0, h1⟩) E.maxit E.tol h.tolPos with ⟨res, e2, hgood⟩ | ⟨hp, _⟩
  · rw [e2, bind_ok, wr_ok (by rw [hs.sat]; exact hc), bind_ok, rd_of_getElem? hit, bind_ok,
      wr_ok (by rw [hs.iters]; exact hc), bind_ok, wr_ok (by rw [hs.ff]; exact hc), bind_ok]
    have g1 : (s.sat.set c res.value).getD c 0 = res.value := by
      have := hs.sat
      simp [List.getD_eq_getElem?_getD, hs.sat, hc]
    have g2 : (s.ff.set c (fracFlow E.fluid res.value c)).getD c 0 = fracFlow E.fluid res.value c := by
      simp [List.getD_eq_getElem?_getD, hs.ff, hc]
    have g3 : (s.iters.set c (s.iters.getD c 0 + res.iterations.getD 0)).getD c 0 = s.iters.getD c 0 + res.iterations.getD 0 := by
      simp only [List.getD_eq_getElem?_getD]
      simp [hs.iters, hc]
    refine ⟨_, rfl, ⟨by simp [hs.sat], by simp [hs.ff], by simp [hs.iters]⟩, fun d hd => ?_, ?_, ?_, ?_, ?_⟩
    · unfold SameAt
      simp [List.getD_eq_getElem?_getD, Ne.symm hd]
    · simp only [g1]
      exact (hbt _).1 hgood.value
    · simp only [g1, g2]
      rfl
    · simp only [g3]
      omega
    · simp only [g1, g3]
      unfold Solved NearZero
      rcases hgood.why with hw | ⟨x0, x1, hx0, hx1, hf, hwid, hval⟩ | ⟨-, hw | ⟨n, hn, hlt⟩⟩
      · exact .inl (.inl hw)
      · refine .inl (.inr ⟨x0, x1, (hbt _).1 hx0, (hbt _).1 hx1, hf, ?_, hval⟩)
        refine lt_of_lt_of_eq hwid ?_
        unfold RootFinders.eps RootFinders.macheps
        norm_num
      · exact absurd hw (not_lt.2 (mul_nonpos_of_nonpos_of_nonneg b0 b1))
      · refine .inr ⟨⟨res, n, e2, hn, hlt⟩, ?_⟩
        rw [hn]
        simp only [Option.getD_some]
        push_cast
        have : (0 : Int) ≤ (s.iters.getD c 0 : Nat) := by positivity
        omega
  · cases hp

end Opm.TwophaseReorder
