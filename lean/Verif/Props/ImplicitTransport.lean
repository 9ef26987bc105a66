import Verif.Proofs.ImplicitNewton
import Verif.Proofs.GridValid
import Verif.Props.SpuExplicit
import Mathlib.Tactic.IntervalCases
/-!
# C115, C116: implicit two-phase transport
-/

namespace Opm.ImplicitTransport
open Opm

/-- **C115.**  A step of the implicit solver, after any history of steps, with any time step and any linear solver that answers with as many numbers as there are cells.  The call returns; pressures and
fluxes do not change.  There are changes `x` such that the new water saturation of each cell is the admissible saturation closest to the old one plus `x c`, and the oil saturation is the
rest.  If the step is reported as converged by its residual (flag 1 or 2), then the reported norm bounds the volume of water missing in each cell if saturations change by `x`, and the changes stay in the
admissible range up to the tolerance or are the initial guess.  With flag 1 the norm is below the absolute tolerance; with flag 2 it is below the relative tolerance times what is missing in some cell for
the initial guess. -/
theorem implicit_step (J : Sources.Junk) {I : Input} (hI : InputOk I) (hC : ControlOk I.ctrl) {ls : Sys → List Rat} (hls : Answers ls I.G.nc) {S : Solver} (hS : Used J ls I S) {st : State}
    (hst : StateOk I st) {pv source : List Rat} (hs : I.G.nc ≤ source.length) (hpv : pv[0]? = some (I.porevol.getD 0 0)) (dt : Rat) {fuel : Nat} (hf : I.ctrl.maxIt.toNat ≤ fuel) :
    ∃ S' st' rpt x, solve J fuel ls I pv source dt S st = .ok (S', st', rpt) ∧ Used J ls I S' ∧ st'.pressure = st.pressure ∧ st'.faceflux = st.faceflux ∧
      st'.saturation.length = 2 * I.G.nc ∧
      (∀ c, c < I.G.nc → st'.saturation.getD (2 * c) 0 = closest I c (st.saturation.getD (2 * c) 0 + x c) ∧ st'.saturation.getD (2 * c + 1) 0 = 1 - st'.saturation.getD (2 * c) 0) ∧
      rpt.flag ∈ ([1, 2, 3, -1] : List Int) ∧
      (rpt.flag = 1 ∨ rpt.flag = 2 → ∃ r, Imbalance I st source dt x r ∧ (∀ c, c < I.G.nc → |r c| ≤ rpt.normRes) ∧ (Near I st x ∨ ∀ c, c < I.G.nc → x c = guess I st c)) ∧
      (rpt.flag = 1 → rpt.normRes < I.ctrl.atol) ∧
      (rpt.flag = 2 → ∃ x0 r0, (∀ c, c < I.G.nc → x0 c = guess I st c) ∧ Imbalance I st source dt x0 r0 ∧ ∃ c, c < I.G.nc ∧ rpt.normRes < I.ctrl.rtol * |r0 c|) := by
  obtain ⟨k, st', r0, src, e, h1, ⟨x0, h2, h3⟩, h4, _⟩ := solve_ok J hI hC hls (used_ready hI hC hls hS) hst hs hpv dt hf
  have hflag := h4.flag
  unfold flagOf at hflag
  refine ⟨_, st', k.rpt, fun c => k.sys.sol.getD c 0, e, Used.called hS hf hst hs e, h4.pressure, h4.faceflux, h4.len, fun c hc => ⟨(h4.sat c hc).1, by rw [(h4.sat c hc).1]; exact (h4.sat c hc).2⟩,
    ?_, ?_, ?_, ?_⟩
  · rw [hflag]
    split
    · simp
    · split
      · simp
      · split <;> simp
  · intro hfl
    have hlt : k.rpt.normRes < I.ctrl.atol ∨ k.rpt.normRes < I.ctrl.rtol * norm r0 := by
      by_contra hcon
      rw [not_or] at hcon
      rw [if_neg hcon.1, if_neg hcon.2] at hflag
      split at hflag <;> omega
    obtain ⟨f1, f2⟩ := h4.fresh hlt
    refine ⟨_, f1, fun c hc => ?_, f2⟩
    rw [h4.normRes]
    exact le_norm (by rw [h4.pat.res]; exact hc)
  · intro hfl
    by_contra hcon
    rw [if_neg hcon] at hflag
    split at hflag
    · omega
    · split at hflag <;> omega
  · intro hfl
    refine ⟨x0, _, h2, h3, ?_⟩
    obtain ⟨c, hc, ec⟩ := norm_attained (l := r0) (by rw [h1]; exact hI.nonempty)
    refine ⟨c, by omega, ?_⟩
    rw [ec]
    by_contra hcon
    rw [if_neg hcon] at hflag
    split at hflag
    · omega
    · split at hflag <;> omega

/-- Saturations after a step are admissible, whether or not it converged. -/
theorem implicit_step_bounds (J : Sources.Junk) {I : Input} (hI : InputOk I) (hC : ControlOk I.ctrl) {ls : Sys → List Rat} (hls : Answers ls I.G.nc) {S : Solver} (hS : Used J ls I S) {st : State}
    (hst : StateOk I st) {pv source : List Rat} (hs : I.G.nc ≤ source.length) {dt : Rat} {fuel : Nat} (hf : I.ctrl.maxIt.toNat ≤ fuel) {S' : Solver} {st' : State} {rpt : Report}
    (hrun : solve J fuel ls I pv source dt S st = .ok (S', st', rpt)) {c : Nat} (hc : c < I.G.nc) :
    I.P.smin.getD (2 * c) 0 ≤ st'.saturation.getD (2 * c) 0 ∧ st'.saturation.getD (2 * c) 0 ≤ I.P.smax.getD (2 * c) 0 ∧
      st'.saturation.getD (2 * c) 0 + st'.saturation.getD (2 * c + 1) 0 = 1 := by
  have hpv : pv[0]? = some (I.porevol.getD 0 0) := by
    have hr := (used_ready hI hC hls hS).pv
    unfold solve at hrun
    rw [bind_eq_ok] at hrun
    obtain ⟨v, hv, hrun⟩ := hrun
    by_cases hne : v = S.pv0
    · rw [rd_eq_ok.1 hv, hne, hr]
    · rw [if_pos hne] at hrun
      cases hrun
  obtain ⟨S'', st'', rpt'', x, e, _, _, _, _, h, _⟩ := implicit_step J hI hC hls hS hst hs hpv dt hf
  rw [e] at hrun
  cases hrun
  obtain ⟨h1, h2⟩ := h c hc
  obtain ⟨b1, b2⟩ := closest_admissible hI hc (st.saturation.getD (2 * c) 0 + x c)
  rw [h2, h1]
  exact ⟨b1, b2, by ring⟩

/-- Changed pore volumes are noticed in cell 0: the call throws. -/
theorem changed_porevolume (J : Sources.Junk) {I : Input} (hI : InputOk I) (hC : ControlOk I.ctrl) {ls : Sys → List Rat} (hls : Answers ls I.G.nc) {S : Solver} (hS : Used J ls I S) (st : State)
    {pv : List Rat} (source : List Rat) {v : Rat} (hpv : pv[0]? = some v) (hv : v ≠ I.porevol.getD 0 0) (dt : Rat) (fuel : Nat) : solve J fuel ls I pv source dt S st = .error .thrown := by
  unfold solve
  rw [rd_of_getElem? hpv, bind_ok, if_pos (by rw [(used_ready hI hC hls hS).pv]; exact hv)]

theorem closest_near {I : Input} {st : State} {x : Nat → Rat} (hn : Near I st x) {c : Nat} (hc : c < I.G.nc) :
    |newSat I st x c - (st.saturation.getD (2 * c) 0 + x c)| ≤ 1 / 100000 := by
  obtain ⟨h1, h2⟩ := hn c hc
  unfold newSat closest
  generalize st.saturation.getD (2 * c) 0 + x c = s at *
  rw [abs_le]
  constructor
  · have : s - 1 / 100000 ≤ min (high I c) (max (low I c) s) := le_min (by linarith) (le_trans (by linarith) (le_max_right _ _))
    linarith
  · have : min (high I c) (max (low I c) s) ≤ s + 1 / 100000 := le_trans (min_le_right _ _) (max_le (by linarith) (by linarith))
    linarith

/-- **C116.**  Water is conserved up to tolerances: if a step is reported as converged by its residual and the initial guess is in the admissible range up to the tolerance, the volume of water in all cells
changes by what the sources supply during the step, up to the number of cells times the reported norm and 1/100000 of the pore volume.  Full claim: every step that
returns conserves water.  It is false: `Demo.unconverged_returns`, and the tolerance is not relative to the pore volume: `Demo.small_cells_half`. -/
theorem implicit_step_conserves_partial (J : Sources.Junk) {I : Input} (hI : InputOk I) (hC : ControlOk I.ctrl) (hpos : ∀ v ∈ I.porevol, 0 ≤ v) {ls : Sys → List Rat} (hls : Answers ls I.G.nc) {S : Solver}
    (hS : Used J ls I S) {st : State} (hst : StateOk I st) (hg : Near I st (guess I st)) {pv source : List Rat} (hs : I.G.nc ≤ source.length) (hpv : pv[0]? = some (I.porevol.getD 0 0)) (dt : Rat)
    {fuel : Nat} (hf : I.ctrl.maxIt.toNat ≤ fuel) :
    ∃ S' st' rpt, solve J fuel ls I pv source dt S st = .ok (S', st', rpt) ∧
      (rpt.flag = 1 ∨ rpt.flag = 2 →
        |∑ c ∈ Finset.range I.G.nc, I.porevol.getD c 0 * (st'.saturation.getD (2 * c) 0 - st.saturation.getD (2 * c) 0) -
          dt * ∑ c ∈ Finset.range I.G.nc, waterSource I.P source c (st'.saturation.getD (2 * c) 0)| ≤
        I.G.nc * rpt.normRes + 1 / 100000 * ∑ c ∈ Finset.range I.G.nc, I.porevol.getD c 0) ∧
      (rpt.flag = 1 → rpt.normRes < I.ctrl.atol) := by
  obtain ⟨S', st', rpt, x, e, _, _, _, _, hsat, _, hbal, hat, _⟩ := implicit_step J hI hC hls hS hst hs hpv dt hf
  refine ⟨S', st', rpt, e, fun hfl => ?_, hat⟩
  obtain ⟨r, ⟨q, hq, hr⟩, hn, hx⟩ := hbal hfl
  have hnear : Near I st x := by
    rcases hx with h | h
    · exact h
    · intro c hc
      rw [h c hc]
      exact hg c hc
  have hpv0 : ∀ c, c < I.G.nc → 0 ≤ I.porevol.getD c 0 := by
    intro c hc
    refine hpos _ ?_
    have : c < I.porevol.length := by rw [hI.porevol]; exact hc
    rw [List.getD_eq_getElem?_getD, List.getElem?_eq_getElem this]
    exact List.getElem_mem this
  have hsum : ∑ c ∈ Finset.range I.G.nc, I.porevol.getD c 0 * (st'.saturation.getD (2 * c) 0 - st.saturation.getD (2 * c) 0) -
      dt * ∑ c ∈ Finset.range I.G.nc, waterSource I.P source c (st'.saturation.getD (2 * c) 0) =
      ∑ c ∈ Finset.range I.G.nc, (r c + I.porevol.getD c 0 * (newSat I st x c - (st.saturation.getD (2 * c) 0 + x c))) := by
    have h0 : ∑ c ∈ Finset.range I.G.nc, I.G.netOutflow q c = 0 := Spu.sum_netOutflow I.G hI.valid q hq.2
    have : ∑ c ∈ Finset.range I.G.nc, (r c + I.porevol.getD c 0 * (newSat I st x c - (st.saturation.getD (2 * c) 0 + x c))) =
        ∑ c ∈ Finset.range I.G.nc, (I.porevol.getD c 0 * (st'.saturation.getD (2 * c) 0 - st.saturation.getD (2 * c) 0) + dt * I.G.netOutflow q c -
          dt * waterSource I.P source c (st'.saturation.getD (2 * c) 0)) := by
      refine Finset.sum_congr rfl fun c hc => ?_
      rw [Finset.mem_range] at hc
      have e1 : st'.saturation.getD (2 * c) 0 = newSat I st x c := (hsat c hc).1
      rw [e1, hr c hc]
      ring
    rw [this, Finset.sum_sub_distrib, Finset.sum_add_distrib, ← Finset.mul_sum, ← Finset.mul_sum, h0]
    ring
  rw [hsum]
  refine le_trans (Finset.abs_sum_le_sum_abs _ _) ?_
  have : ∀ c ∈ Finset.range I.G.nc, |r c + I.porevol.getD c 0 * (newSat I st x c - (st.saturation.getD (2 * c) 0 + x c))| ≤ rpt.normRes + 1 / 100000 * I.porevol.getD c 0 := by
    intro c hc
    rw [Finset.mem_range] at hc
    refine le_trans (abs_add_le _ _) (add_le_add (hn c hc) ?_)
    rw [abs_mul, abs_of_nonneg (hpv0 c hc), mul_comm]
    exact mul_le_mul_of_nonneg_right (closest_near hnear hc) (hpv0 c hc)
  refine le_trans (Finset.sum_le_sum this) ?_
  rw [Finset.sum_add_distrib, Finset.sum_const, Finset.card_range, nsmul_eq_mul, ← Finset.mul_sum]

/-! ### Examples and counterexamples -/

namespace Demo

def twoCells : GridTopo := { nc := 2, nf := 1, faceCells := [0, 1], cellFacepos := [0, 1, 2], cellFaces := [0, 0] }

/-- Relative permeabilities equal saturations. -/
def linear : Props :=
  { relperm := fun _ s t => ((s, t), (1, 0, 0, 1)), capPress := fun _ _ _ => ((0, 0), (0, 0, 0, 0)), mu := (1, 1), rho := (1000, 800), smin := [0, 0, 0, 0], smax := [1, 1, 1, 1] }

/-- The values the solver uses if parameters do not say otherwise. -/
def standard : Control := { maxIt := 20, atol := 1 / 10 ^ 6, rtol := 5 / 10 ^ 7, dxtol := 1 / 10 ^ 8, maxItLs := 5 }

def input : Input :=
  { G := twoCells, geo := { d := 1, cellCentroids := [0, 1], faceNormals := [1], faceCentroids := [1 / 2] }, P := linear, gravity := none, porevol := [1, 2], htrans := [1, 1],
    guessPrevious := false, ctrl := standard }

def junk : Sources.Junk := ⟨fun _ => 7, fun _ => 7, fun _ => true⟩

/-- A linear solver for two unknowns: Cramer's rule. -/
def cramer (Y : Sys) : List Rat :=
  let a := fun i => Y.sa.getD i 0
  let b := fun i => Y.res.getD i 0
  let d := a 0 * a 3 - a 1 * a 2
  [(b 0 * a 3 - a 1 * b 1) / d, (a 0 * b 1 - b 0 * a 2) / d]

def flowing : State := { saturation := [0, 1, 0, 1], faceflux := [1], pressure := [0, 0] }

/-- Construct a solver and make one step. -/
def run (I : Input) (ls : Sys → List Rat) (source : List Rat) (dt : Rat) (st : State) : M (Solver × State × Report) := do
  let S ← make junk I
  solve junk 20 ls I I.porevol source dt S st

theorem twoCells_valid : twoCells.Valid := GridTopo.ValidB.valid (by decide +kernel)

theorem input_ok (gr : Option (List Rat)) (hgr : gr = none ∨ gr = some [-10]) (b : Bool) (pv : List Rat) (hpv : pv.length = 2) (C : Control) :
    InputOk { input with gravity := gr, guessPrevious := b, porevol := pv, ctrl := C } where
  valid := twoCells_valid
  first := rfl
  nonempty := (by decide : 0 < input.G.nc)
  sided := by
    intro f hf hs
    have : f < 1 := hf
    obtain rfl : f = 0 := by omega
    exact absurd (show twoCells.faceCells[2 * 0]? = some (-1) from hs.1) (by decide)
  enough := (by decide : input.G.nf ≤ input.G.cellFacepos.getD input.G.nc 0)
  htrans := rfl
  conducts := (by decide +kernel : ∀ h ∈ input.htrans, 0 < h)
  gravity := by
    intro g hg
    rcases hgr with h | h
    · rw [h] at hg; cases hg
    · rw [h] at hg
      cases hg
      exact ⟨Nat.le_refl 1, Nat.le_refl 1, Nat.le_refl 2⟩
  porevol := hpv
  ranges := (by decide : 2 * input.G.nc ≤ input.P.smin.length ∧ 2 * input.G.nc ≤ input.P.smax.length)
  range := by
    intro c hc
    have : c < 2 := hc
    interval_cases c
    · exact (by decide +kernel : (0 : Rat) ≤ 1)
    · exact (by decide +kernel : (0 : Rat) ≤ 1)
  viscosity := (by decide +kernel : input.P.mu.1 ≠ 0 ∧ input.P.mu.2 ≠ 0)
  mobility := by
    intro c s hc ha
    have h2 : c < 2 := hc
    have h : 0 ≤ s ∧ s ≤ 1 := by
      interval_cases c <;> exact ha
    simp only [lamW, lamO, input, linear, div_one]
    exact ⟨h.1, by linarith [h.2], by linarith⟩
  capillary := by intro c s _ _; exact ⟨rfl, rfl⟩

theorem flowing_ok (I : Input) (hI : I.G = twoCells) : StateOk I flowing where
  saturation := by rw [hI]; rfl
  pressure := by rw [hI]; decide
  faceflux := by rw [hI]; decide
  moving := by
    intro f a b hs h0
    rw [hI] at hs
    have : f < 1 := hs.lt twoCells_valid
    obtain rfl : f = 0 := by omega
    exact absurd h0 (by decide +kernel)

theorem cramer_answers : Answers cramer 2 := fun _ _ => rfl

/-- The hypotheses of C115 and C116 hold for two cells, water injected into the first and fluid produced from the second; the first guess is half water. -/
example : ∃ S, InputOk input ∧ ControlOk input.ctrl ∧ Answers cramer input.G.nc ∧ Used junk cramer input S ∧ StateOk input flowing ∧ Near input flowing (guess input flowing) ∧ (∀ v ∈ input.porevol, 0 ≤ v) := by
  obtain ⟨S, e, _⟩ := make_ok junk (input_ok none (.inl rfl) false [1, 2] rfl standard)
  refine ⟨S, input_ok none (.inl rfl) false [1, 2] rfl standard, ⟨by decide, by decide +kernel⟩, cramer_answers, .made e, flowing_ok _ rfl, ?_, by decide +kernel⟩
  intro c hc
  have : c < 2 := hc
  interval_cases c <;> decide +kernel

/-- The step of that example converges: one third of the first cell and one fifteenth of the second is water. -/
example : ∃ S' st' rpt, run input cramer [1, -1] (1 / 2) flowing = .ok (S', st', rpt) ∧ st'.saturation = [1 / 3, 2 / 3, 1 / 15, 14 / 15] ∧ rpt.flag = 1 := by
  have h : (match run input cramer [1, -1] (1 / 2) flowing with | .ok (_, st', rpt) => decide (st'.saturation = [1 / 3, 2 / 3, 1 / 15, 14 / 15] ∧ rpt.flag = 1) | .error _ => false) = true := by
    decide +kernel
  match e : run input cramer [1, -1] (1 / 2) flowing with
  | .ok (S', st', rpt) =>
    rw [e] at h
    exact ⟨S', st', rpt, rfl, of_decide_eq_true h⟩
  | .error _ => rw [e] at h; cases h

/-- **A step that does not converge returns like any other.**  One iteration with a poor linear solver: the call returns, the report (which is only printed) has flag -1, and the cell that had no water is
now half water although all the water supplied would fill half of it and part of that has to leave. -/
theorem unconverged_returns : ∃ S' st' rpt, run { input with ctrl := { standard with maxIt := 1 } } (fun _ => [1 / 100, 0]) [1, -1] (1 / 2) flowing = .ok (S', st', rpt) ∧ rpt.flag = -1 ∧
    1 < rpt.normRes ∧ st'.saturation = [3199 / 6400, 3201 / 6400, 1 / 2, 1 / 2] := by
  have h : (match run { input with ctrl := { standard with maxIt := 1 } } (fun _ => [1 / 100, 0]) [1, -1] (1 / 2) flowing with
      | .ok (_, st', rpt) => decide (rpt.flag = -1 ∧ 1 < rpt.normRes ∧ st'.saturation = [3199 / 6400, 3201 / 6400, 1 / 2, 1 / 2]) | .error _ => false) = true := by
    decide +kernel
  match e : run { input with ctrl := { standard with maxIt := 1 } } (fun _ => [1 / 100, 0]) [1, -1] (1 / 2) flowing with
  | .ok (S', st', rpt) =>
    rw [e] at h
    exact ⟨S', st', rpt, rfl, of_decide_eq_true h⟩
  | .error _ => rw [e] at h; cases h

/-- Nothing flows and there is no source. -/
def still : State := { saturation := [1 / 5, 4 / 5, 1 / 5, 4 / 5], faceflux := [0], pressure := [0, 0] }

/-- **Small cells are filled to one half.**  The absolute tolerance is a volume of 1e-6 and no parameter changes it.  If pore volumes are smaller, the initial guess is accepted as converged: without flow or
sources, saturations change from 1/5 to 1/2. -/
theorem small_cells_half : ∃ S' st' rpt, run { input with porevol := [1 / 10 ^ 7, 1 / 10 ^ 7] } cramer [0, 0] 1 still = .ok (S', st', rpt) ∧ rpt.flag = 1 ∧
    st'.saturation = [1 / 2, 1 / 2, 1 / 2, 1 / 2] := by
  have h : (match run { input with porevol := [1 / 10 ^ 7, 1 / 10 ^ 7] } cramer [0, 0] 1 still with
      | .ok (_, st', rpt) => decide (rpt.flag = 1 ∧ st'.saturation = [1 / 2, 1 / 2, 1 / 2, 1 / 2]) | .error _ => false) = true := by
    decide +kernel
  match e : run { input with porevol := [1 / 10 ^ 7, 1 / 10 ^ 7] } cramer [0, 0] 1 still with
  | .ok (S', st', rpt) =>
    rw [e] at h
    exact ⟨S', st', rpt, rfl, of_decide_eq_true h⟩
  | .error _ => rw [e] at h; cases h

/-- Two cells above each other; the previous solution is the initial guess. -/
def column : Input := { input with gravity := some [-10], guessPrevious := true }

/-- All water in the lower cell, all oil in the upper. -/
def settled : State := { saturation := [1, 0, 0, 1], faceflux := [0], pressure := [0, 0] }

def assertFails (r : M (Solver × State × Report)) : Bool := match r with | .error .assertFail => true | _ => false

/-- **A settled column stops at an assertion** (`mt > 0`; without assertions, 0/0 is computed): on the face between the cells there is no total flux, water would come from the upper cell which
has none, and oil from the lower which has none.  This is why `StateOk` asks for `moving`. -/
theorem settled_column_asserts : assertFails (run column cramer [0, 0] (1 / 2) settled) = true := by decide +kernel

/-- All hypotheses of C115 except `moving` hold in that case. -/
example : InputOk column ∧ settled.saturation.length = 2 * column.G.nc ∧ column.G.nf ≤ settled.faceflux.length ∧ column.G.nc ≤ settled.pressure.length :=
  ⟨input_ok (some [-10]) (.inr rfl) true [1, 2] rfl standard, by decide, by decide, by decide⟩

/-- If the sides of the face are exchanged, the same column is left as it is. -/
theorem settled_column_reversed : ∃ S' st' rpt, run { column with G := { twoCells with faceCells := [1, 0] } } cramer [0, 0] (1 / 2) settled = .ok (S', st', rpt) ∧ rpt.flag = 1 ∧
    st'.saturation = settled.saturation := by
  have h : (match run { column with G := { twoCells with faceCells := [1, 0] } } cramer [0, 0] (1 / 2) settled with
      | .ok (_, st', rpt) => decide (rpt.flag = 1 ∧ st'.saturation = settled.saturation) | .error _ => false) = true := by
    decide +kernel
  match e : run { column with G := { twoCells with faceCells := [1, 0] } } cramer [0, 0] (1 / 2) settled with
  | .ok (S', st', rpt) =>
    rw [e] at h
    exact ⟨S', st', rpt, rfl, of_decide_eq_true h⟩
  | .error _ => rw [e] at h; cases h

end Demo

end Opm.ImplicitTransport
