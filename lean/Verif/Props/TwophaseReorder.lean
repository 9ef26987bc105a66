import Verif.Proofs.TwophaseSweeps
import Verif.Props.MiscUtil
import Verif.Proofs.GridValid
/-!
# Two-phase transport by reordering
-/

namespace Opm.TwophaseReorder
open Opm Relation

/-- What is required of the arguments: a valid mesh with at least one cell, arrays of the right sizes, positive pore volumes and viscosities, relative permeabilities
that are never negative and never both zero, where water does not move at saturation zero and oil does not move at saturation one. -/
structure TransportData (E : Env) : Prop where
  valid : E.g.Valid
  cells : 0 < E.g.nc
  lenFlux : E.flux.length = E.g.nf
  lenPv : E.g.nc ≤ E.pv.length
  lenSrc : E.g.nc ≤ E.src.length
  pvPos : ∀ c < E.g.nc, 0 < E.pv.getD c 0
  dtPos : 0 ≤ E.dt
  tolPos : 0 ≤ E.tol
  muPos : 0 < E.fluid.mu.1 ∧ 0 < E.fluid.mu.2
  krPos : ∀ c s, 0 ≤ s → s ≤ 1 → 0 ≤ (E.fluid.relperm c s (1 - s)).1 ∧ 0 ≤ (E.fluid.relperm c s (1 - s)).2 ∧
    (0 < (E.fluid.relperm c s (1 - s)).1 ∨ 0 < (E.fluid.relperm c s (1 - s)).2)
  noWater : ∀ c, (E.fluid.relperm c 0 (1 - 0)).1 = 0
  noOil : ∀ c, (E.fluid.relperm c 1 (1 - 1)).2 = 0

/-- The share of water in what flows out of cell `c` at saturation `s`. -/
def share (E : Env) (c : Nat) (s : Rat) : Rat := waterFraction (E.fluid.relperm c s (1 - s)).1 (E.fluid.relperm c s (1 - s)).2 E.fluid.mu.1 E.fluid.mu.2

private theorem share_frac (E : Env) : share E = frac E := rfl

private theorem TransportData.ok {E : Env} (h : TransportData E) : EnvOk E where
  valid := h.valid
  lenFlux := h.lenFlux
  lenPv := h.lenPv
  lenSrc := h.lenSrc
  pvPos := h.pvPos
  dtPos := h.dtPos
  tolPos := h.tolPos
  proper := by
    rw [← share_frac]
    have hpos : ∀ c s, 0 ≤ s → s ≤ 1 → 0 ≤ (E.fluid.relperm c s (1 - s)).1 / E.fluid.mu.1 ∧ 0 ≤ (E.fluid.relperm c s (1 - s)).2 / E.fluid.mu.2 ∧
        0 < (E.fluid.relperm c s (1 - s)).1 / E.fluid.mu.1 + (E.fluid.relperm c s (1 - s)).2 / E.fluid.mu.2 := by
      intro c s h0 h1
      obtain ⟨k1, k2, k3⟩ := h.krPos c s h0 h1
      have a := div_nonneg k1 h.muPos.1.le
      have b := div_nonneg k2 h.muPos.2.le
      refine ⟨a, b, ?_⟩
      rcases k3 with k3 | k3
      · linarith [div_pos k3 h.muPos.1]
      · linarith [div_pos k3 h.muPos.2]
    refine ⟨fun c s h0 h1 => ?_, fun c => ?_, fun c => ?_⟩
    · obtain ⟨a, b, k⟩ := hpos c s h0 h1
      unfold share waterFraction
      exact ⟨div_nonneg a k.le, (div_le_one k).2 (by linarith)⟩
    · unfold share waterFraction
      rw [h.noWater c]
      simp
    · obtain ⟨a, b, k⟩ := hpos c 1 (by norm_num) (le_refl _)
      unfold share waterFraction
      rw [h.noOil c, zero_div, add_zero] at k ⊢
      exact div_self k.ne'

theorem toWaterSat_ok {nc : Nat} {both : List Rat} (sat : List Rat) (hl : both.length = 2 * nc) :
    ∃ sw, MiscUtil.toWaterSat both sat = .ok sw ∧ sw.length = nc ∧ ∀ c < nc, sw.getD c 0 = both.getD (2 * c) 0 := by
  have hd : both.length / 2 = nc := by omega
  obtain ⟨t', e', h1', h2', _⟩ := IfsTpfa.loop_write (n := nc) (s := MiscUtil.vresize sat nc) (f := fun i sw => do
    let x ← rd both (2 * i)
    wr sw i x) (fun i => both.getD (2 * i) 0) (by rw [MiscUtil.length_vresize]) (by
      intro i u hi _
      rw [rd_of_getElem? (getElem?_getD (by omega)), bind_ok])
  unfold MiscUtil.toWaterSat
  rw [hd, e']
  exact ⟨t', rfl, by rw [h1', MiscUtil.length_vresize], h2'⟩

/-- The root finder, asked for a zero of `R` between zero and one with the guess `s0`, runs out of iterations. -/
def GivesUp (E : Env) (s0 : Rat) (R : Rat → Rat) : Prop :=
  ∃ r k, RootFinders.solveGuess .warnAndContinue R s0 0 1 E.maxit E.tol = .ok r ∧ r.iterations = some k ∧ E.maxit < (k : Int)

/-- What the solver leaves in a cell: saturations between zero and one that add up to one, and (unless the iterations of the root finder ran out on it) the implicit upwind
equation holds up to the tolerance, with the saturations `y` upstream. -/
def CellSolved (E : Env) (both both' : List Rat) (iters : List Nat) (c : Nat) (y : Nat → Rat) : Prop :=
  (0 ≤ both'.getD (2 * c) 0 ∧ both'.getD (2 * c) 0 ≤ 1) ∧ both'.getD (2 * c) 0 + both'.getD (2 * c + 1) 0 = 1 ∧
    (NearZero E.tol (waterResidual E.g E.flux E.pv E.src E.dt (share E) c (both.getD (2 * c) 0) y) (both.getD (2 * c) 0) (both'.getD (2 * c) 0) ∨
      (GivesUp E (both.getD (2 * c) 0) (waterResidual E.g E.flux E.pv E.src E.dt (share E) c (both.getD (2 * c) 0) y) ∧ E.maxit < iters.getD c 0))

private theorem solve_main {E : Env} (h : TransportData E) {sat ff both : List Rat} (hff : ff.length = E.g.nc) (hl : both.length = 2 * E.g.nc)
    (hb : ∀ c < E.g.nc, 0 ≤ both.getD (2 * c) 0 ∧ both.getD (2 * c) 0 ≤ 1) {fuel : Nat} (hfuel : 2 * E.g.nc + 2 * E.g.nf + 2 ≤ fuel) :
    (¬NoCirculation E.g E.flux ∧ solve fuel E sat ff both = .error .thrown) ∨
    ∃ both' iters, solve fuel E sat ff both = .ok (both', iters) ∧ both'.length = 2 * E.g.nc ∧
      ∀ c < E.g.nc, ∃ y : Nat → Rat, (∀ u, E.g.FlowsTo E.flux u c → (0 ≤ y u ∧ y u ≤ 1) ∧ |y u - both'.getD (2 * u) 0| ≤ 300 / 10 ^ 9 ∧
        (¬ReflTransGen (E.g.FlowsTo E.flux) c u → y u = both'.getD (2 * u) 0)) ∧ CellSolved E both both' iters c y := by
  obtain ⟨sw, e1, l1, v1⟩ := toWaterSat_ok sat hl
  obtain ⟨x1, e2, -⟩ := downwind_graph h.valid h.lenFlux h.cells hfuel
  obtain ⟨x2, e3, hwf, hE⟩ := downwind_graph (flux := E.flux.map (fun q => -q)) h.valid (by simp [h.lenFlux]) h.cells hfuel
  obtain ⟨calls, e4, hp, ho, hscc, hm⟩ := Reorder.Props.reorderAndTransport_order h.valid h.lenFlux h.cells [] [] hfuel
  unfold solve
  rw [e1, bind_ok]
  simp only
  rw [e2, bind_ok, e3, bind_ok, e4, bind_ok]
  rcases calls_ok h.ok hwf (fun c d => (hE c d).trans (flowsTo_neg d c)) hp ho hscc (init := { sat := sw, ff := ff, iters := List.replicate E.g.nc 0 }) ⟨l1, hff, by simp⟩
    (fun c hc => by simp only; rw [v1 c hc]; exact hb c hc) with ⟨⟨cs, hcs⟩, hthr⟩ | ⟨st, e5, hf, hd⟩
  · left
    refine ⟨fun hno => ?_, by rw [hthr]; rfl⟩
    obtain ⟨L, e6, -⟩ := Reorder.single_calls h.valid h.lenFlux h.cells hno [] [] hfuel
    rw [e4] at e6
    rw [Except.ok.inj e6] at hcs
    obtain ⟨_, _, hc⟩ := List.mem_map.1 hcs
    cases hc
  · right
    rw [e5, bind_ok]
    obtain ⟨b', e6, lb, hb', -⟩ := MiscUtil.both_water_round_trip st.sat both []
    rw [e6, bind_ok]
    rw [hf.sat] at lb hb'
    refine ⟨b', st.iters, rfl, lb, fun c hc => ?_⟩
    obtain ⟨⟨k1, -⟩, y, k2, k3⟩ := hd c hc
    have hlt : ∀ u, E.g.FlowsTo E.flux u c → u < E.g.nc := by
      rintro u ⟨f, q, -, ⟨-, hs⟩ | ⟨-, hs⟩⟩
      · have := h.valid.side_range hs
        omega
      · have := h.valid.side_range hs
        omega
    refine ⟨y, fun u hu => ?_, ?_, (hb' c hc).2, ?_⟩
    · rw [(hb' u (hlt u hu)).1]
      obtain ⟨z1, z2, z3⟩ := k2 u hu
      refine ⟨z1, le_trans z2 (le_of_eq ?_), z3⟩
      unfold sweepTol
      norm_num
    · rw [(hb' c hc).1]
      exact k1
    · rw [(hb' c hc).1, ← v1 c hc, share_frac]
      exact k3

/-- **Implicit transport.**  For every mesh, flux field, sources, pore volumes and time step, and every proper fluid, `solve` either throws, which only happens when fluid
circulates, or returns saturations between zero and one which satisfy the implicit upwind equation in every cell: exactly with the new saturations of the cells upstream,
except for cells in circulation with the cell, whose saturations may be off by `300·10⁻⁹`.  (Unless the root finder reached its iteration limit in the cell.) -/
theorem transport_solved {E : Env} (h : TransportData E) {sat ff both : List Rat} (hff : ff.length = E.g.nc) (hl : both.length = 2 * E.g.nc)
    (hb : ∀ c < E.g.nc, 0 ≤ both.getD (2 * c) 0 ∧ both.getD (2 * c) 0 ≤ 1) {fuel : Nat} (hfuel : 2 * E.g.nc + 2 * E.g.nf + 2 ≤ fuel) :
    (¬NoCirculation E.g E.flux ∧ solve fuel E sat ff both = .error .thrown) ∨
    ∃ both' iters, solve fuel E sat ff both = .ok (both', iters) ∧ both'.length = 2 * E.g.nc ∧
      ∀ c < E.g.nc, ∃ y : Nat → Rat, (∀ u, E.g.FlowsTo E.flux u c → (0 ≤ y u ∧ y u ≤ 1) ∧ |y u - both'.getD (2 * u) 0| ≤ 300 / 10 ^ 9 ∧
        (¬ReflTransGen (E.g.FlowsTo E.flux) c u → y u = both'.getD (2 * u) 0)) ∧ CellSolved E both both' iters c y :=
  solve_main h hff hl hb hfuel

/-- **Implicit transport without circulation.**  `solve` succeeds, and the new saturations satisfy the implicit upwind equations. -/
theorem transport_solved_upwind {E : Env} (h : TransportData E) (hno : NoCirculation E.g E.flux) {sat ff both : List Rat} (hff : ff.length = E.g.nc)
    (hl : both.length = 2 * E.g.nc) (hb : ∀ c < E.g.nc, 0 ≤ both.getD (2 * c) 0 ∧ both.getD (2 * c) 0 ≤ 1) {fuel : Nat} (hfuel : 2 * E.g.nc + 2 * E.g.nf + 2 ≤ fuel) :
    ∃ both' iters, solve fuel E sat ff both = .ok (both', iters) ∧ both'.length = 2 * E.g.nc ∧
      ∀ c < E.g.nc, CellSolved E both both' iters c (fun u => both'.getD (2 * u) 0) := by
  rcases solve_main h hff hl hb hfuel (sat := sat) with ⟨hc, -⟩ | ⟨both', iters, e, l, hs⟩
  · exact absurd hno hc
  · refine ⟨both', iters, e, l, fun c hc => ?_⟩
    obtain ⟨y, hy, h1, h2, h3⟩ := hs c hc
    refine ⟨h1, h2, ?_⟩
    have : ∀ u, E.g.FlowsTo E.flux u c → y u = both'.getD (2 * u) 0 := fun u hu => (hy u hu).2.2 (fun hr => hno c ((TransGen.tail' hr hu)))
    rw [share_frac] at h3 ⊢
    rwa [residual_congr h.lenFlux this] at h3

/-- **Water balance.**  If the sources account for what the fluxes carry out of each cell (as `computeTransportSource` arranges), then over the whole mesh the change of the
volume of water equals what the sources inject minus the water the sinks take, up to the pore-volume weighted residuals of the equations solved. -/
theorem water_balance {E : Env} (h : TransportData E) (hno : NoCirculation E.g E.flux) (hcons : ∀ c < E.g.nc, E.g.interiorOut E.flux c - E.g.interiorIn E.flux c = E.src.getD c 0)
    {sat ff both : List Rat} (hff : ff.length = E.g.nc) (hl : both.length = 2 * E.g.nc)
    (hb : ∀ c < E.g.nc, 0 ≤ both.getD (2 * c) 0 ∧ both.getD (2 * c) 0 ≤ 1) {fuel : Nat} (hfuel : 2 * E.g.nc + 2 * E.g.nf + 2 ≤ fuel) :
    ∃ (both' : List Rat) (iters : List Nat) (ρ : Nat → Rat), solve fuel E sat ff both = .ok (both', iters) ∧
      (∀ c < E.g.nc, ρ c = waterResidual E.g E.flux E.pv E.src E.dt (share E) c (both.getD (2 * c) 0) (fun u => both'.getD (2 * u) 0) (both'.getD (2 * c) 0)) ∧
      ∑ c ∈ Finset.range E.g.nc, E.pv.getD c 0 * (both'.getD (2 * c) 0 - both.getD (2 * c) 0) =
        E.dt * (∑ c ∈ Finset.range E.g.nc, max (E.src.getD c 0) 0 - ∑ c ∈ Finset.range E.g.nc, max (-E.src.getD c 0) 0 * share E c (both'.getD (2 * c) 0)) +
          ∑ c ∈ Finset.range E.g.nc, E.pv.getD c 0 * ρ c := by
  obtain ⟨both', iters, e, l, -⟩ := transport_solved_upwind h hno hff hl hb hfuel (sat := sat)
  refine ⟨both', iters, _, e, fun c _ => rfl, ?_⟩
  have key : ∀ c ∈ Finset.range E.g.nc,
      E.pv.getD c 0 * waterResidual E.g E.flux E.pv E.src E.dt (share E) c (both.getD (2 * c) 0) (fun u => both'.getD (2 * u) 0) (both'.getD (2 * c) 0) =
        E.pv.getD c 0 * (both'.getD (2 * c) 0 - both.getD (2 * c) 0) + E.dt * (∑ u ∈ Finset.range E.g.nc, E.g.flowRate E.flux c u * share E c (both'.getD (2 * c) 0)
          - ∑ u ∈ Finset.range E.g.nc, E.g.flowRate E.flux u c * share E u (both'.getD (2 * u) 0))
          + E.dt * (max (-E.src.getD c 0) 0 * share E c (both'.getD (2 * c) 0)) - E.dt * max (E.src.getD c 0) 0 := by
    intro c hc
    have hc := Finset.mem_range.1 hc
    have hp := (h.pvPos c hc).ne'
    unfold waterResidual
    rw [hcons c hc, sub_self, mul_zero, add_zero, ← Finset.sum_mul]
    unfold GridTopo.interiorOut
    field_simp
    ring
  rw [Finset.sum_congr rfl key, Finset.sum_sub_distrib, Finset.sum_add_distrib, Finset.sum_add_distrib, ← Finset.mul_sum, ← Finset.mul_sum, ← Finset.mul_sum,
    Finset.sum_sub_distrib, Finset.sum_comm, sub_self]
  ring

/-! ### Non-vacuity -/

/-- Three cells in a row. -/
private def row : GridTopo := { nc := 3, nf := 4, faceCells := [-1, 0, 0, 1, 1, 2, 2, -1], cellFacepos := [0, 2, 4, 6], cellFaces := [0, 1, 1, 2, 2, 3] }

/-- Quadratic relative permeabilities. -/
private def quadratic : Fluid := { relperm := fun _ s o => (s * s, o * o), mu := (1, 2) }

private def flood : Env := { g := row, fluid := quadratic, tol := 1 / 10 ^ 3, maxit := 20, flux := [0, 2, 2, 0], pv := [1, 2, 3], src := [2, 0, -2], dt := 1 / 4 }

private theorem flood_data : TransportData flood where
  valid := GridTopo.ValidB.valid (by decide +kernel)
  cells := by decide
  lenFlux := by decide
  lenPv := by decide
  lenSrc := by decide
  pvPos := by decide +kernel
  dtPos := by decide +kernel
  tolPos := by decide +kernel
  muPos := by decide +kernel
  krPos := fun c s h0 h1 => by
    refine ⟨mul_self_nonneg _, mul_self_nonneg _, ?_⟩
    rcases eq_or_lt_of_le h0 with h | h
    · exact .inr (by subst h; change (0 : Rat) < (1 - 0) * (1 - 0); norm_num)
    · exact .inl (mul_pos h h)
  noWater := fun c => by change (0 : Rat) * 0 = 0; norm_num
  noOil := fun c => by change (1 - 1 : Rat) * (1 - 1) = 0; norm_num

private theorem flood_acyclic : NoCirculation flood.g flood.flux := by
  have hstep : ∀ u d, flood.g.FlowsTo flood.flux u d → u < d := by
    rintro u d ⟨f, q, hq, h⟩
    match f, hq with
    | 0, hq => cases hq; rcases h with h | h <;> exact absurd h.1 (by decide +kernel)
    | 1, hq =>
      cases hq
      rcases h with ⟨-, h1, h2⟩ | ⟨h, -⟩
      · simp [flood, row] at h1 h2; omega
      · exact absurd h (by decide +kernel)
    | 2, hq =>
      cases hq
      rcases h with ⟨-, h1, h2⟩ | ⟨h, -⟩
      · simp [flood, row] at h1 h2; omega
      · exact absurd h (by decide +kernel)
    | 3, hq => cases hq; rcases h with h | h <;> exact absurd h.1 (by decide +kernel)
  intro c h
  have : ∀ a b, TransGen (flood.g.FlowsTo flood.flux) a b → a < b := by
    intro a b h
    induction h with
    | single h => exact hstep _ _ h
    | tail _ h ih => exact lt_trans ih (hstep _ _ h)
  exact lt_irrefl _ (this c c h)

example : ∃ both' iters, solve 100 flood [] [0, 0, 0] [0, 1, 0, 1, 0, 1] = .ok (both', iters) ∧
    ∀ c < 3, CellSolved flood [0, 1, 0, 1, 0, 1] both' iters c (fun u => both'.getD (2 * u) 0) := by
  obtain ⟨b, i, e, -, h⟩ := transport_solved_upwind flood_data flood_acyclic (sat := []) (ff := [0, 0, 0]) (both := [0, 1, 0, 1, 0, 1]) (by decide) (by decide)
    (by decide +kernel) (fuel := 100) (by decide)
  exact ⟨b, i, e, h⟩

example : ∀ c < flood.g.nc, flood.g.interiorOut flood.flux c - flood.g.interiorIn flood.flux c = flood.src.getD c 0 := by
  unfold GridTopo.interiorOut GridTopo.interiorIn GridTopo.flowRate
  decide +kernel

/-! ### Circulation -/

private def ring : GridTopo := { nc := 4, nf := 4, faceCells := [0, 1, 1, 2, 2, 3, 3, 0], cellFacepos := [0, 2, 4, 6, 8], cellFaces := [0, 3, 0, 1, 1, 2, 2, 3] }

private def whirl (dt : Rat) : Env := { g := ring, fluid := { relperm := fun _ s o => (s, o), mu := (1, 1) }, tol := 1 / 10 ^ 3, maxit := 20, flux := [1, 1, 1, 1], pv := [1, 1, 1, 1], src := [0, 0, 0, 0], dt := dt }

private theorem whirl_data (dt : Rat) (h : 0 ≤ dt) : TransportData (whirl dt) where
  valid := GridTopo.ValidB.valid (by show ring.ValidB; decide +kernel)
  cells := by show 0 < 4; decide
  lenFlux := rfl
  lenPv := by show 4 ≤ 4; decide
  lenSrc := by show 4 ≤ 4; decide
  pvPos := by show ∀ c < 4, 0 < ([1, 1, 1, 1] : List Rat).getD c 0; decide +kernel
  dtPos := h
  tolPos := by show (0 : Rat) ≤ 1 / 10 ^ 3; decide +kernel
  muPos := by show (0 : Rat) < 1 ∧ (0 : Rat) < 1; decide +kernel
  krPos := fun c s h0 h1 => by
    refine ⟨h0, by show 0 ≤ 1 - s; linarith, ?_⟩
    rcases eq_or_lt_of_le h0 with h | h
    · exact .inr (by show 0 < 1 - s; linarith)
    · exact .inl h
  noWater := fun c => rfl
  noOil := fun c => by show (1 - 1 : Rat) = 0; norm_num

/-- Four cells in circulation: eight sweeps. -/
example : solve 100 (whirl 1) [] [0, 0, 0, 0] [1, 0, 0, 1, 0, 1, 0, 1] =
    .ok ([2290649225 / 4294967296, 2004318071 / 4294967296, 2290649225 / 8589934592, 6299285367 / 8589934592, 143165577 / 1073741824, 930576247 / 1073741824,
      143165577 / 2147483648, 2004318071 / 2147483648], [8, 9, 8, 8]) := by decide +kernel

/-- With a large time step the sweeps over cells in circulation stop too early, because the saturations hardly change from one sweep to the next: water that filled one cell
out of four, in a closed circulation without sources, then fills more than three. -/
theorem circulation_creates_water : TransportData (whirl (10 ^ 10)) ∧ ∃ (both' : List Rat) (iters : List Nat), solve 100 (whirl (10 ^ 10)) [] [0, 0, 0, 0] [1, 0, 0, 1, 0, 1, 0, 1] = .ok (both', iters) ∧
    3 < both'.getD 0 0 + both'.getD 2 0 + both'.getD 4 0 + both'.getD 6 0 := by
  refine ⟨whirl_data _ (by decide +kernel), ?_⟩
  have h : (match solve 100 (whirl (10 ^ 10)) [] [0, 0, 0, 0] [1, 0, 0, 1, 0, 1, 0, 1] with
    | .ok (b, _) => decide (3 < b.getD 0 0 + b.getD 2 0 + b.getD 4 0 + b.getD 6 0)
    | .error _ => false) = true := by decide +kernel
  split at h
  · rename_i b i e
    exact ⟨b, i, e, of_decide_eq_true h⟩
  · cases h

end Opm.TwophaseReorder
