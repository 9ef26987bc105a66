import Verif.Proofs.CompressibleSolve
import Verif.Props.IncompTpfa
/-!
# The pressure solver for compressible fluids: theorems
-/

namespace Opm.CompressibleTpfa
open Opm Opm.CfsTpfa
open _root_.Opm.IfsTpfa (numPerf numWells)

variable {junk : Nat → Nat} {jd : Nat → Rat} {jc : Nat → Comp} {lu : Lapack} {ls : Data → List Rat}

/-! ## C120: what a call does -/

/-- **Construction.**  It succeeds for all inputs and wells the solver can handle. -/
theorem make_succeeds (junk : Nat → Nat) (jd : Nat → Rat) (jc : Nat → Comp) {I : Input} (hI : InputOk I) {W : Option Wells.W} (hW : ∀ V, W = some V → WellsFit I V) :
    ∃ S, make junk jd jc I W = .ok S := by
  obtain ⟨S, e, _⟩ := make_ok junk jd jc hI hW
  exact ⟨S, e⟩

/-- Wells with another number of phases than the fluid are refused. -/
theorem make_refuses (junk : Nat → Nat) (jd : Nat → Rat) (jc : Nat → Comp) {I : Input} (hI : InputOk I) {V : Wells.W} (h : V.np ≠ I.fluid.np) : make junk jd jc I (some V) = .error .thrown := by
  unfold make
  rw [rd_of_getElem? ((hI.valid.rowPos hI.first).get (le_refl _)), bind_ok]
  have : checkPhases I (some V) = .error .thrown := if_pos h
  rw [this]
  rfl

theorem used_ready {I : Input} (hI : InputOk I) (hlu : LapackOk lu) (hls : ∀ h, (ls h).length = h.J.m) {m k : Rat → Rat} (hr : RockIs I m k) {W0 : Option Wells.W}
    (hW0 : ∀ V, W0 = some V → WellsFit I V) {S : Solver} (hU : Used junk jd jc lu ls I W0 S) : Ready I W0 S := by
  induction hU with
  | made h =>
    obtain ⟨S, e, hS⟩ := make_ok junk jd jc hI hW0
    rw [e] at h
    cases h
    exact hS
  | called _ hW hs hst hfl hc ih =>
    rcases solve_core hI hlu hls hr hW hs hst hfl _ ih with ⟨e, _⟩ | ⟨S', st', e, hR, _⟩
    · rw [e] at hc; cases hc
    · rw [e] at hc
      cases hc
      exact hR

/-- **A call.**  After any number of calls with any states and controls, and whatever the linear solver returns, a call either throws, and then some cell or well is off by more than the tolerance,
or returns.  In that case fluids are as before; fluxes, pressures of faces and perforations, and rates are those at the pressures returned, with properties at the state `d`, the last one a system
was assembled for; the pressures were accepted for one of the reasons of `Accepted`; the system is reported singular exactly if nothing fixes the level of the pressures. -/
theorem compressible_solve {I : Input} (hI : InputOk I) (hlu : LapackOk lu) (hls : ∀ h, (ls h).length = h.J.m) {m k : Rat → Rat} (hr : RockIs I m k) {W W0 : Option Wells.W}
    (hW0 : ∀ V, W0 = some V → WellsFit I V) {S : Solver} (hU : Used junk jd jc lu ls I W0 S) (hW : ∀ V, W = some V → WellsFit I V) (hs : SamePerfs W W0) {st : State} (hst : StateOk I W st)
    (hfl : Flows I st) (dt : Rat) :
    (solve lu ls I W dt S st = .error .thrown ∧ Failed I W m k dt st) ∨
    ∃ S' st', solve lu ls I W dt S st = .ok (S', st') ∧ Used junk jd jc lu ls I W0 S' ∧ StateOk I W st' ∧ Flows I st' ∧
      ∃ d K, Current I W m dt st d K ∧ SameFluids st d ∧ Results I W st d st' K ∧ Accepted I W m k ls st d st' K (singularPressure S') ∧ (singularPressure S' = true ↔ Loose I m k st d K) := by
  rcases solve_core hI hlu hls hr hW hs hst hfl dt (used_ready hI hlu hls hr hW0 hU) with ⟨e, _, h⟩ | ⟨S', st', e, _, hst', d, K, h1, h2, h3, h4, h5, _⟩
  · exact .inl ⟨e, h⟩
  · refine .inr ⟨S', st', e, .called hU hW hs hst hfl e, hst', ?_, d, K, h1, h2, h3, h4, h5⟩
    obtain ⟨g1, g2⟩ := h3.fluids
    intro c p hc
    rw [g1, g2]
    exact hfl c p hc

/-- **Returned pressures were accepted by one of the two tolerances**, provided at least one iteration is allowed.  Missing: for other numbers of iterations this is false, see `idle_call` and
`Demo.unconverged_accepted`. -/
theorem tolerance_met_partial {I : Input} (hI : InputOk I) (hmax : 0 < I.maxiter) (hlu : LapackOk lu) (hls : ∀ h, (ls h).length = h.J.m) {m k : Rat → Rat} (hr : RockIs I m k)
    {W W0 : Option Wells.W} (hW0 : ∀ V, W0 = some V → WellsFit I V) {S : Solver} (hU : Used junk jd jc lu ls I W0 S) (hW : ∀ V, W = some V → WellsFit I V) (hs : SamePerfs W W0) {st : State}
    (hst : StateOk I W st) (hfl : Flows I st) {dt : Rat} {S' : Solver} {st' : State} (e : solve lu ls I W dt S st = .ok (S', st')) :
    ∃ d K, Current I W m dt st d K ∧
      (((∀ c u, c < I.G.nc → Holds K c u → |poreVolume I m c (st'.pressure.getD c 0) - ∑ i ∈ Finset.range I.fluid.np, u i| ≤ I.residualTol) ∧
        (∀ V D, K.F.wells = some (V, D) → ∀ w md, w < V.nw → HasMode I.fluid.np V w md → |wellRes K V D w md| ≤ I.residualTol) ∧ d.pressure = st'.pressure ∧ d.bhp = st'.bhp) ∨
      ∀ r, r < I.G.nc + numWells W → |unknowns I st' r - unknowns I d r| ≤ I.changeTol) := by
  rcases compressible_solve hI hlu hls hr hW0 hU hW hs hst hfl dt with ⟨e', _⟩ | ⟨S1, st1, e', _, _, _, d, K, h1, _, _, h4, _⟩
  · rw [e] at e'; cases e'
  · rw [e] at e'
    cases e'
    refine ⟨d, K, h1, ?_⟩
    cases h4 with
    | residual hd hc hw => exact .inl ⟨hc, hw, hd⟩
    | change h ha hx => exact .inr fun r hr => (hx r hr).2
    | idle hm _ => omega

/-- **Without iterations any state is accepted.**  If no iterations are allowed, a call does not throw but returns the pressures it was given. -/
theorem idle_call {I : Input} (hI : InputOk I) (hmax : I.maxiter ≤ 0) (hct : 0 ≤ I.changeTol) (hlu : LapackOk lu) (hls : ∀ h, (ls h).length = h.J.m) {m k : Rat → Rat} (hr : RockIs I m k)
    {W W0 : Option Wells.W} (hW0 : ∀ V, W0 = some V → WellsFit I V) {S : Solver} (hU : Used junk jd jc lu ls I W0 S) (hW : ∀ V, W = some V → WellsFit I V) (hs : SamePerfs W W0) {st : State}
    (hst : StateOk I W st) (hfl : Flows I st) (dt : Rat) :
    ∃ S' st', solve lu ls I W dt S st = .ok (S', st') ∧ st'.pressure = st.pressure ∧ st'.bhp = st.bhp := by
  rcases solve_core hI hlu hls hr hW hs hst hfl dt (used_ready hI hlu hls hr hW0 hU) with ⟨_, h, _⟩ | ⟨S', st', e, _, _, _, _, _, _, _, _, _, h⟩
  · rcases h with h | h
    · omega
    · exact absurd hct (not_le.2 h)
  · exact ⟨S', st', e, h hmax⟩

/-! ## C121: upstream mobilities -/

/-- **Upstream mobilities.**  The cell the rule picks for a face is upstream for every phase if all phases want to flow in the same direction, in particular if there is one phase.  Missing: with
phases in opposite directions the rule is wrong for some of them, see `Demo.wrong_upstream`. -/
theorem upstream_partial {I : Input} {st : State} {f a b u : Nat} (h : FirstPhaseRule I st f a b u)
    (hag : ∀ p q, p < I.fluid.np → q < I.fluid.np → potential I st a f p < potential I st b f p → ¬ potential I st b f q < potential I st a f q) :
    ∀ p, p < I.fluid.np → Upstream I st f a b p u := by
  obtain ⟨h1, h2⟩ := h
  intro p hp
  by_cases hx : ∃ p, p < I.fluid.np ∧ potential I st a f p < potential I st b f p ∧ ∀ q, q < p → potential I st a f q = potential I st b f q
  · refine ⟨fun _ => h1 hx, fun hlt => ?_⟩
    obtain ⟨q, hq, hlt', _⟩ := hx
    exact absurd hlt (hag q p hq hp hlt')
  · refine ⟨fun hlt => ?_, fun _ => h2 hx⟩
    exfalso
    -- the first phase with different potentials
    have hex : ∃ n, n < I.fluid.np ∧ potential I st a f n ≠ potential I st b f n := ⟨p, hp, ne_of_lt hlt⟩
    classical
    have hs := Nat.find_spec hex
    have hmin : ∀ q, q < Nat.find hex → potential I st a f q = potential I st b f q := fun q hq => by
      by_contra hc
      exact Nat.find_min hex hq ⟨by omega, hc⟩
    rcases lt_or_gt_of_ne hs.2 with hl | hl
    · exact hx ⟨_, hs.1, hl, hmin⟩
    · exact hag p _ hp hs.1 hlt hl

/-- One phase: the rule is right. -/
theorem upstream_one_phase {I : Input} (hnp : I.fluid.np = 1) {st : State} {f a b u : Nat} (h : FirstPhaseRule I st f a b u) : Upstream I st f a b 0 u := by
  refine upstream_partial h (fun p q hp hq hlt => ?_) 0 (by omega)
  obtain rfl : p = 0 := by omega
  obtain rfl : q = 0 := by omega
  exact not_lt.2 hlt.le

/-- **What a call uses.**  The properties of a face between two cells are those of one of the two, and if all phases want to flow in the same direction, of the one upstream. -/
theorem face_properties_partial {I : Input} {W : Option Wells.W} {m : Rat → Rat} {dt : Rat} {st0 st : State} {K : CfsTpfa.Input} (h : Current I W m dt st0 st K) {f a b : Nat}
    (hsd : I.G.Sides f a b)
    (hag : ∀ p q, p < I.fluid.np → q < I.fluid.np → potential I st a f p < potential I st b f p → ¬ potential I st b f q < potential I st a f q) :
    ∃ u, (u = a ∨ u = b) ∧ (∀ p, p < I.fluid.np → Upstream I st f a b p u ∧ ent K.cq.phasemobf I.fluid.np f p = mobilityAt I st u p) ∧
      ∀ i j, i < I.fluid.np → j < I.fluid.np → elm K.cq.Af I.fluid.np f i j = matrixAt I st u (j * I.fluid.np + i) := by
  obtain ⟨_, u, h1, h2, h3⟩ := h.faces f a b hsd
  refine ⟨u, ?_, fun p hp => ⟨upstream_partial h1 hag p hp, h2 p hp⟩, h3⟩
  by_cases hx : ∃ p, p < I.fluid.np ∧ potential I st a f p < potential I st b f p ∧ ∀ q, q < p → potential I st a f q = potential I st b f q
  · exact .inr (h1.1 hx)
  · exact .inl (h1.2 hx)

/-! ## Hypotheses can be met -/

namespace Demo
open Opm.CfsTpfa.Demo (G W bhp lu2)

/-- Two phases of densities 1 and 2; the second one dissolves the first component in proportion to pressure. -/
def fluid : Fluid :=
  { np := 2, matrix := fun p _ _ j => [1, 0, p, 2].getD j 0, dmatrix := fun _ _ _ j => [0, 0, 1, 0].getD j 0, viscosity := fun _ _ _ j => [1, 2].getD j 1,
    relperm := fun s _ j => s.getD j 0 * s.getD j 0, density := fun A j => [A.getD 0 0, A.getD 3 0].getD j 0 }

def input (maxiter : Int) : Input :=
  { G := G, geo := IncompTpfa.Demo.input.geo, vol := [1, 1], fluid := fluid, perm := IncompTpfa.Demo.input.perm, porosity := [1/2, 1/2],
    rock := none, residualTol := 1/10, changeTol := 1/10, maxiter := maxiter, gravity := some [0, 0, 10] }

theorem inputOk (n : Int) : InputOk (input n) where
  valid := CfsTpfa.Demo.valid
  first := rfl
  nonempty := (by decide : (0 : Nat) < 2)
  sided := IncompTpfa.Demo.inputOk.sided
  sizes := IncompTpfa.Demo.inputOk.sizes
  dim := (by decide : (3 : Nat) ≠ 0)
  conducts := IncompTpfa.Demo.inputOk.conducts
  gravity := by intro g e; cases e; exact (by decide : 3 ≤ 3)
  vol := (by decide : 2 ≤ 2)
  porosity := (by decide : 2 ≤ 2)
  regular := by
    intro p z c _ v hv j hj
    have hj : j < 2 := hj
    have h0 := hv 0 (by decide : (0 : Nat) < 2)
    have h1 := hv 1 (by decide : (1 : Nat) < 2)
    change ∑ j ∈ Finset.range 2, _ = (0 : Rat) at h0 h1
    rw [Finset.sum_range_succ, Finset.sum_range_one] at h0 h1
    have e0 : (1 : Rat) * v 0 + p * v 1 = 0 := h0
    have e1 : (0 : Rat) * v 0 + 2 * v 1 = 0 := h1
    have h : v 1 = 0 := by linarith
    rw [h] at e0
    have : j = 0 ∨ j = 1 := by omega
    rcases this with rfl | rfl <;> linarith
  viscous := by
    intro p z c q hq
    have hq : q < 2 := hq
    have : q = 0 ∨ q = 1 := by omega
    rcases this with rfl | rfl
    · exact (by decide : (1 : Rat) ≠ 0)
    · exact (by decide : (2 : Rat) ≠ 0)

theorem rigid (n : Int) : RockIs (input n) (fun _ => 1) (fun _ => 0) := ⟨fun _ _ => ⟨rfl, rfl⟩, fun r h => by cases h⟩

theorem wellsFit (n : Int) : WellsFit (input n) (W bhp) where
  perfs := CfsTpfa.Demo.perfs bhp
  wi := (by decide : 2 ≤ 2)
  mode := fun w hw => by
    have : w = 0 ∨ w = 1 := by have : w < 2 := hw; omega
    rcases this with rfl | rfl
    · exact ⟨_, CfsTpfa.Demo.modes.1⟩
    · exact ⟨_, CfsTpfa.Demo.modes.2.2 bhp⟩
  np := rfl
  np3 := (by decide : 2 ≤ 3)
  depth := (by decide : 2 ≤ 2)
  type := (by decide : 2 ≤ 2)
  frac := (by decide : 2 * 2 ≤ 4)
  one := fun w hw ht => by
    have : w = 0 ∨ w = 1 := by have : w < 2 := hw; omega
    rcases this with rfl | rfl
    · exact (by decide +kernel : |(point [1, 0, 0, 1] 0 2).sum - 1| < (1 : Rat) / 1000000)
    · cases ht

def state : State :=
  { pressure := [10, 25], surfacevol := [1, 1, 2, 1], saturation := [1/2, 1/2, 1, 0], faceflux := [0, 0, 0], facepressure := [0, 0, 0], bhp := [12, 5], perfRates := [0, 0], perfPress := [0, 0] }

theorem stateOk (n : Int) : StateOk (input n) (some (W bhp)) state := ⟨rfl, rfl, rfl, rfl, rfl, fun V e => by cases e; exact ⟨rfl, rfl, rfl⟩⟩

theorem flows (n : Int) : Flows (input n) state := by
  intro c p hc
  have : c = 0 ∨ c = 1 := by have : c < 2 := hc; omega
  rcases this with rfl | rfl
  · exact (by decide +kernel : ∑ q ∈ Finset.range 2, fluid.relperm (point state.saturation 0 2) 0 q / fluid.viscosity 0 (point state.surfacevol 0 2) 0 q ≠ 0)
  · exact (by decide +kernel : ∑ q ∈ Finset.range 2, fluid.relperm (point state.saturation 1 2) 1 q / fluid.viscosity 0 (point state.surfacevol 1 2) 1 q ≠ 0)

theorem fits (n : Int) : ∀ V, some (W bhp) = some V → WellsFit (input n) V := fun V e => by cases e; exact wellsFit n

/-- The theorems apply to the first call. -/
example (lu : Lapack) (hlu : LapackOk lu) (ls : Data → List Rat) (hls : ∀ h, (ls h).length = h.J.m) : ∃ S, make (fun _ => 0) (fun _ => 0) (fun _ => default) (input 5) (some (W bhp)) = .ok S ∧
    ((solve lu ls (input 5) (some (W bhp)) 2 S state = .error .thrown ∧ Failed (input 5) (some (W bhp)) (fun _ => 1) (fun _ => 0) 2 state) ∨
      ∃ S' st', solve lu ls (input 5) (some (W bhp)) 2 S state = .ok (S', st') ∧ SameFluids state st') := by
  obtain ⟨S, e⟩ := make_succeeds (fun _ => 0) (fun _ => 0) (fun _ => default) (inputOk 5) (fits 5)
  refine ⟨S, e, ?_⟩
  rcases compressible_solve (inputOk 5) hlu hls (rigid 5) (fits 5) (.made e) (fits 5) ⟨rfl, rfl, rfl⟩ (stateOk 5) (flows 5) 2 with h | ⟨S', st', e', _, _, _, d, K, _, _, h, _⟩
  · exact .inl h
  · exact .inr ⟨S', st', e', h.fluids⟩

/-- A call without iterations. -/
example (lu : Lapack) (hlu : LapackOk lu) (ls : Data → List Rat) (hls : ∀ h, (ls h).length = h.J.m) : ∃ S, make (fun _ => 0) (fun _ => 0) (fun _ => default) (input 0) (some (W bhp)) = .ok S ∧
    ∃ S' st', solve lu ls (input 0) (some (W bhp)) 2 S state = .ok (S', st') ∧ st'.pressure = [10, 25] := by
  obtain ⟨S, e⟩ := make_succeeds (fun _ => 0) (fun _ => 0) (fun _ => default) (inputOk 0) (fits 0)
  obtain ⟨S', st', e', h, _⟩ := idle_call (inputOk 0) (le_refl 0) (by decide +kernel : (0 : Rat) ≤ 1 / 10) hlu hls (rigid 0) (fits 0) (.made e) (fits 0) ⟨rfl, rfl, rfl⟩ (stateOk 0) (flows 0) 2
  exact ⟨S, e, S', st', e', h⟩

/-- A run: pressures before and after, the residual of the last system, fluxes, rates. -/
def run (I : Input) (ls : Data → List Rat) (st : State) : Option (List Rat × List Rat × List Rat × List Rat) :=
  match make (fun n => n) (fun _ => 7) (fun _ => default) I (some (W bhp)) with
  | .error _ => none
  | .ok S => match solve lu2 ls I (some (W bhp)) 2 S st with
    | .error _ => none
    | .ok (S', st') => some (st'.pressure, S'.h.sys.b, st'.faceflux, st'.perfRates)

/-- The model computes, and a call without iterations is not converged: cells are off by much more than the tolerance of a tenth. -/
theorem unconverged_accepted : ∃ q r, run (input 0) (fun h => List.replicate h.J.m 0) state = some ([10, 25], [-361/12, 233/6, 6, -26], q, r) := by
  have h : (match run (input 0) (fun h => List.replicate h.J.m 0) state with | some (p, b, _, _) => decide (p = [10, 25] ∧ b = [-361/12, 233/6, 6, -26]) | none => false) = true := by decide +kernel
  match e : run (input 0) (fun h => List.replicate h.J.m 0) state with
  | none => rw [e] at h; cases h
  | some (p, b, q, r) =>
    rw [e] at h
    obtain ⟨rfl, rfl⟩ := of_decide_eq_true h
    exact ⟨q, r, rfl⟩

/-- A small increment is accepted. -/
theorem small_change : ∃ b q r, run (input 3) (fun h => List.replicate h.J.m (1/100)) state = some ([999/100, 2499/100], b, q, r) := by
  have h : (match run (input 3) (fun h => List.replicate h.J.m (1/100)) state with | some (p, _, _, _) => decide (p = [999/100, 2499/100]) | none => false) = true := by decide +kernel
  match e : run (input 3) (fun h => List.replicate h.J.m (1/100)) state with
  | none => rw [e] at h; cases h
  | some (p, b, q, r) =>
    rw [e] at h
    obtain rfl := of_decide_eq_true h
    exact ⟨b, q, r, rfl⟩

/-- Mobilities of faces at a state. -/
def mobilities (st : State) : Option (List Rat) :=
  match make (fun n => n) (fun _ => 7) (fun _ => default) (input 5) none with
  | .error _ => none
  | .ok S => match perIteration (input 5) none st S with
    | .error _ => none
    | .ok S' => some S'.faceMob

/-- **The mobility of the wrong cell.**  The claim that every phase gets the mobility of the cell upstream is false.  At face 1 between cells 0 and 1 the light phase wants to flow up, the heavy
phase down: the potential of the heavy phase is greater in cell 0, where its mobility is one eighth, but the face gets that of cell 1, zero. -/
theorem wrong_upstream : (∃ l, mobilities state = some l ∧ l.getD (1 * 2 + 1) 0 = 0) ∧ G.Sides 1 0 1 ∧ potential (input 5) state 1 1 1 < potential (input 5) state 0 1 1 ∧
    mobilityAt (input 5) state 0 1 = 1/8 ∧ ∀ u, FirstPhaseRule (input 5) state 1 0 1 u → ¬ Upstream (input 5) state 1 0 1 1 u := by
  have h : (match mobilities state with | some l => decide (l.getD (1 * 2 + 1) 0 = 0) | none => false) = true := by decide +kernel
  have h1 : potential (input 5) state 1 1 1 < potential (input 5) state 0 1 1 := by decide +kernel
  refine ⟨?_, ⟨rfl, rfl⟩, h1, by decide +kernel, fun u hu hup => ?_⟩
  · match e : mobilities state with
    | none => rw [e] at h; cases h
    | some l => exact ⟨l, rfl, by rw [e] at h; exact of_decide_eq_true h⟩
  · have hb := hu.1 ⟨0, by decide +kernel, by decide +kernel, fun q hq => by omega⟩
    have ha := hup.2 h1
    omega

/-- With a greater difference of pressures both phases flow up. -/
def state2 : State := { state with pressure := [10, 45] }

/-- The hypothesis of `upstream_partial` is met. -/
example : ∀ p, p < 2 → Upstream (input 5) state2 1 0 1 p 1 := by
  refine upstream_partial (I := input 5) (st := state2) (f := 1) (a := 0) (b := 1) (u := 1) ⟨fun _ => rfl, fun h => ?_⟩ (fun p q hp hq hlt => ?_)
  · exact absurd ⟨0, (by decide : (0 : Nat) < 2), by decide +kernel, fun q hq => by omega⟩ h
  · have hq : q < 2 := hq
    have : q = 0 ∨ q = 1 := by omega
    rcases this with rfl | rfl <;> decide +kernel

end Demo
end Opm.CompressibleTpfa
