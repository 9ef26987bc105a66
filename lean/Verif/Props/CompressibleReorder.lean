import Verif.Proofs.CompressibleSweeps
import Verif.Props.TwophaseReorder
import Verif.Proofs.Blocks
/-!
# Compressible two-phase transport by reordering
-/

namespace Opm.CompressibleReorder
open Opm Relation

/-! ### Surface volumes -/

private theorem getD_set {l : List Rat} {k m : Nat} (hk : k < l.length) (v : Rat) : (l.set k v).getD m 0 = if m = k then v else l.getD m 0 := by
  by_cases h : m = k
  · subst h
    rw [if_pos rfl]
    simp [List.getD_eq_getElem?_getD, hk]
  · rw [if_neg h]
    simp only [List.getD_eq_getElem?_getD, List.getElem?_set_ne (fun e => h e.symm)]

/-- **Surface volumes.**  `computeSurfacevol` overwrites the first `n·np` entries: the surface volume of each component is the row of the point's matrix (stored by columns)
times the saturations of the point.  What lies behind is kept. -/
theorem surfacevol_matrix {n np : Nat} {A sat z : List Rat} (hA : n * (np * np) ≤ A.length) (hs : n * np ≤ sat.length) (hz : n * np ≤ z.length) :
    ∃ z', computeSurfacevol n np A sat z = .ok z' ∧ z'.length = z.length ∧ (∀ k, n * np ≤ k → z'.getD k 0 = z.getD k 0) ∧
      ∀ i row, i < n → row < np → z'.getD (i * np + row) 0 = ∑ col ∈ Finset.range np, A.getD (i * (np * np) + np * col + row) 0 * sat.getD (i * np + col) 0 := by
  obtain ⟨z1, e1, l1, v1, w1⟩ := loop_writes (n := n * np) (f := fun k z => wr z k 0) (s := z) (fun k => k) (fun _ => (0 : Rat)) (fun k hk => by omega) (fun _ _ _ _ h => h)
    (fun _ _ _ _ _ => rfl)
  unfold computeSurfacevol
  rw [e1, bind_ok]
  obtain ⟨z', e, h1, h2, h3, h4⟩ := loop_inv (n := n) (s := z1) (f := fun i z =>
    loop np (fun col z =>
      loop np (fun row z => do
        let a ← rd A (i * np * np + row + col * np)
        let s ← rd sat (i * np + col)
        let y ← rd z (i * np + row)
        wr z (i * np + row) (y + a * s)) z) z)
    (fun m (t : List Rat) => t.length = z.length ∧ (∀ k, n * np ≤ k → t.getD k 0 = z.getD k 0) ∧ (∀ k, m * np ≤ k → k < n * np → t.getD k 0 = 0) ∧
      ∀ i row, i < m → row < np → t.getD (i * np + row) 0 = ∑ col ∈ Finset.range np, A.getD (i * (np * np) + np * col + row) 0 * sat.getD (i * np + col) 0)
    ⟨l1, fun k hk => w1 k (fun i hi h => by omega),
      fun k _ hk => v1 k hk, fun i row hi => by omega⟩ (by
      rintro i t hi ⟨t1, t2, t3, t4⟩
      have bound : i * np + np ≤ n * np := by
        have := Nat.mul_le_mul_right np (show i + 1 ≤ n from hi)
        rwa [Nat.succ_mul] at this
      have bound2 : i * (np * np) + np * np ≤ n * (np * np) := by
        have := Nat.mul_le_mul_right (np * np) (show i + 1 ≤ n from hi)
        rwa [Nat.succ_mul] at this
      obtain ⟨u, eu, u1, u2, u3⟩ := loop_inv (n := np) (s := t) (f := fun col z =>
        loop np (fun row z => do
          let a ← rd A (i * np * np + row + col * np)
          let s ← rd sat (i * np + col)
          let y ← rd z (i * np + row)
          wr z (i * np + row) (y + a * s)) z)
        (fun c (u : List Rat) => u.length = z.length ∧ (∀ k, (∀ row < np, k ≠ i * np + row) → u.getD k 0 = t.getD k 0) ∧
          ∀ row < np, u.getD (i * np + row) 0 = ∑ col ∈ Finset.range c, A.getD (i * (np * np) + np * col + row) 0 * sat.getD (i * np + col) 0)
        ⟨t1, fun _ _ => rfl, fun row hrow => by rw [Finset.sum_range_zero]; exact t3 _ (by omega) (by omega)⟩ (by
          rintro c u hc ⟨u1, u2, u3⟩
          have bc : np * c + np ≤ np * np := by
            have := Nat.mul_le_mul_left np (show c + 1 ≤ np from hc)
            rwa [Nat.mul_succ] at this
          obtain ⟨v, ev, v1, v2, v3, v4⟩ := loop_inv (n := np) (s := u) (f := fun row z => do
              let a ← rd A (i * np * np + row + c * np)
              let s ← rd sat (i * np + c)
              let y ← rd z (i * np + row)
              wr z (i * np + row) (y + a * s))
            (fun r (v : List Rat) => v.length = z.length ∧ (∀ k, (∀ row < np, k ≠ i * np + row) → v.getD k 0 = t.getD k 0) ∧
              (∀ row, r ≤ row → row < np → v.getD (i * np + row) 0 = ∑ col ∈ Finset.range c, A.getD (i * (np * np) + np * col + row) 0 * sat.getD (i * np + col) 0) ∧
              ∀ row < r, v.getD (i * np + row) 0 = ∑ col ∈ Finset.range (c + 1), A.getD (i * (np * np) + np * col + row) 0 * sat.getD (i * np + col) 0)
            ⟨u1, u2, fun row _ hrow => u3 row hrow, fun row hr => by omega⟩ (by
              rintro r v hr ⟨v1, v2, v3, v4⟩
              have ix : i * np * np + r + c * np = i * (np * np) + np * c + r := by ring
              rw [ix, rd_of_getElem? (getElem?_getD (by omega)), bind_ok, rd_of_getElem? (getElem?_getD (by omega)), bind_ok, rd_of_getElem? (getElem?_getD (by omega)), bind_ok,
                wr_ok (by omega)]
              refine ⟨_, rfl, by simp [v1], fun k hk => ?_, fun row h1 h2 => ?_, fun row hrow => ?_⟩
              · rw [getD_set (by omega), if_neg (hk r hr)]
                exact v2 k hk
              · rw [getD_set (by omega), if_neg (by omega)]
                exact v3 row (by omega) h2
              · rw [getD_set (by omega)]
                by_cases hrr : row = r
                · subst hrr
                  rw [if_pos rfl, v3 row (le_refl _) hr, Finset.sum_range_succ]
                · rw [if_neg (by omega)]
                  exact v4 row (by omega))
          exact ⟨v, ev, v1, v2, v4⟩)
      refine ⟨u, eu, u1, fun k hk => ?_, fun k h1 h2 => ?_, fun j row hj hrow => ?_⟩
      · rw [u2 k (fun row hrow => by omega)]
        exact t2 k hk
      · rw [Nat.succ_mul] at h1
        rw [u2 k (fun row hrow => by omega)]
        exact t3 k (by omega) h2
      · by_cases hji : j = i
        · subst hji
          exact u3 row hrow
        · have : j * np + np ≤ i * np := by
            have := Nat.mul_le_mul_right np (show j + 1 ≤ i by omega)
            rwa [Nat.succ_mul] at this
          rw [u2 _ (fun r hr => by omega)]
          exact t4 j row (by omega) hrow)
  exact ⟨z', e, h1, h2, h4⟩

/-! ### The solver -/

/-- What is required of the arguments: a valid mesh with at least one cell, arrays of the right sizes, positive pore volumes before the step, positive viscosities, no
miscibility (the matrices are diagonal), water that has a positive surface volume, relative permeabilities that are never negative and never both zero, where water does not
move at saturation zero and oil does not move at saturation one. -/
structure TransportData (E : Env) : Prop where
  valid : E.g.Valid
  cells : 0 < E.g.nc
  lenFlux : E.flux.length = E.g.nf
  lenPv0 : E.g.nc ≤ E.pv0.length
  lenPv : E.g.nc ≤ E.pv.length
  lenSrc : E.g.nc ≤ E.src.length
  lenA : E.A.length = 4 * E.g.nc
  lenZ : E.surfvol.length = 2 * E.g.nc
  pvPos : ∀ c < E.g.nc, 0 < E.pv0.getD c 0
  immiscible : ∀ c < E.g.nc, E.A.getD (4 * c + 1) 0 = 0 ∧ E.A.getD (4 * c + 2) 0 = 0
  bPos : ∀ c < E.g.nc, 0 < E.A.getD (4 * c) 0
  zPos : ∀ c < E.g.nc, 0 ≤ E.surfvol.getD (2 * c) 0
  dtPos : 0 ≤ E.dt
  tolPos : 0 ≤ E.tol
  muPos : ∀ c < E.g.nc, 0 < E.visc.getD (2 * c) 0 ∧ 0 < E.visc.getD (2 * c + 1) 0
  krPos : ∀ c < E.g.nc, ∀ s, 0 ≤ s → s ≤ 1 → 0 ≤ (E.relperm c s (1 - s)).1 ∧ 0 ≤ (E.relperm c s (1 - s)).2 ∧ (0 < (E.relperm c s (1 - s)).1 ∨ 0 < (E.relperm c s (1 - s)).2)
  noWater : ∀ c < E.g.nc, (E.relperm c 0 (1 - 0)).1 = 0

/-- The share of water in what flows out of cell `c` at saturation `s`. -/
def share (E : Env) (c : Nat) (s : Rat) : Rat := waterFraction (E.relperm c s (1 - s)).1 (E.relperm c s (1 - s)).2 (E.visc.getD (2 * c) 0) (E.visc.getD (2 * c + 1) 0)

/-- The surface volume of a unit of water in cell `c`. -/
def waterVolume (E : Env) (c : Nat) : Rat := E.A.getD (4 * c) 0

/-- The equation of cell `c`, with the saturations `y` upstream. -/
def cellEquation (E : Env) (c : Nat) (y : Nat → Rat) : Rat → Rat :=
  surfaceResidual E.g E.flux E.pv0 E.pv E.src E.dt (waterVolume E) (share E) c (E.surfvol.getD (2 * c) 0) y

private theorem equation_eq (E : Env) (c : Nat) (y : Nat → Rat) : cellEquation E c y = R E c y := rfl

private theorem TransportData.ok {E : Env} (h : TransportData E) : EnvOk E where
  valid := h.valid
  lenFlux := h.lenFlux
  lenPv0 := h.lenPv0
  lenPv := h.lenPv
  lenSrc := h.lenSrc
  lenA := h.lenA.ge
  lenZ := h.lenZ.ge
  pvPos := h.pvPos
  bPos := h.bPos
  zPos := h.zPos
  dtPos := h.dtPos
  tolPos := h.tolPos
  fracPos := fun c hc s h0 h1 => by
    obtain ⟨k1, k2, -⟩ := h.krPos c hc s h0 h1
    have a := div_nonneg k1 (h.muPos c hc).1.le
    have b := div_nonneg k2 (h.muPos c hc).2.le
    change 0 ≤ waterFraction _ _ _ _
    unfold waterFraction
    exact div_nonneg a (add_nonneg a b)
  fracZero := fun c hc => by
    change waterFraction _ _ _ _ = 0
    unfold waterFraction
    rw [h.noWater c hc]
    simp

/-- The root finder, asked for a zero of `R` between zero and one with the guess `s0`, runs out of iterations. -/
def GivesUp (E : Env) (s0 : Rat) (R : Rat → Rat) : Prop :=
  ∃ r k, RootFinders.solveGuess .warnAndContinue R s0 0 1 E.maxit E.tol = .ok r ∧ r.iterations = some k ∧ E.maxit < (k : Int)

/-- What the solver leaves in a cell: saturations between zero and one that add up to one, the surface volumes of both phases at these saturations, and the implicit upwind
balance of the water holds up to the tolerance, with the saturations `y` upstream, unless the cell full of water could not take up all the water coming in, or the iterations
of the root finder ran out. -/
def CellSolved (E : Env) (both both' z' : List Rat) (c : Nat) (y : Nat → Rat) : Prop :=
  (0 ≤ both'.getD (2 * c) 0 ∧ both'.getD (2 * c) 0 ≤ 1) ∧ both'.getD (2 * c) 0 + both'.getD (2 * c + 1) 0 = 1 ∧
    (z'.getD (2 * c) 0 = E.A.getD (4 * c) 0 * both'.getD (2 * c) 0 ∧ z'.getD (2 * c + 1) 0 = E.A.getD (4 * c + 3) 0 * both'.getD (2 * c + 1) 0) ∧
    (NearZero E.tol (cellEquation E c y) (both.getD (2 * c) 0) (both'.getD (2 * c) 0) ∨ cellEquation E c y 1 < 0 ∨ GivesUp E (both.getD (2 * c) 0) (cellEquation E c y))

private theorem solve_main {E : Env} (h : TransportData E) {sat ff both : List Rat} (hff : ff.length = E.g.nc) (hl : both.length = 2 * E.g.nc)
    (hb : ∀ c < E.g.nc, 0 ≤ both.getD (2 * c) 0 ∧ both.getD (2 * c) 0 ≤ 1) {fuel : Nat} (hfuel : 2 * E.g.nc + 2 * E.g.nf + 2 ≤ fuel) :
    (¬NoCirculation E.g E.flux ∧ solve fuel E sat ff both = .error .thrown) ∨
    ∃ both' z', solve fuel E sat ff both = .ok (both', z') ∧ both'.length = 2 * E.g.nc ∧ z'.length = 2 * E.g.nc ∧
      ∀ c < E.g.nc, ∃ y : Nat → Rat, (∀ u, E.g.FlowsTo E.flux u c → (0 ≤ y u ∧ y u ≤ 1) ∧ |y u - both'.getD (2 * u) 0| ≤ 300 / 10 ^ 9 ∧
        (¬ReflTransGen (E.g.FlowsTo E.flux) c u → y u = both'.getD (2 * u) 0)) ∧ CellSolved E both both' z' c y := by
  obtain ⟨sw, e1, l1, v1⟩ := TwophaseReorder.toWaterSat_ok sat hl
  obtain ⟨x1, e2, -⟩ := TwophaseReorder.downwind_graph h.valid h.lenFlux h.cells hfuel
  obtain ⟨x2, e3, hwf, hE⟩ := TwophaseReorder.downwind_graph (flux := E.flux.map (fun q => -q)) h.valid (by simp [h.lenFlux]) h.cells hfuel
  obtain ⟨calls, e4, hp, ho, hscc, hm⟩ := Reorder.Props.reorderAndTransport_order h.valid h.lenFlux h.cells [] [] hfuel
  have hcells := h.cells
  have hlA := h.lenA
  have hlZ := h.lenZ
  unfold solve
  rw [e1, bind_ok, rd_of_getElem? (getElem?_getD (by omega)), bind_ok, rd_of_getElem? (getElem?_getD (by omega)), bind_ok,
    if_neg (by have := h.immiscible 0 h.cells; simpa using this)]
  simp only
  rw [e2, bind_ok, e3, bind_ok, e4, bind_ok]
  rcases calls_ok h.ok hwf (fun c d => (hE c d).trans (TwophaseReorder.flowsTo_neg d c)) hp ho hscc (init := { sat := sw, ff := ff, iters := [] }) ⟨l1, hff⟩
    (fun c hc => by simp only; rw [v1 c hc]; exact hb c hc) with ⟨⟨cs, hcs⟩, hthr⟩ | ⟨st, e5, hf, hd⟩
  · left
    refine ⟨fun hno => ?_, by rw [hthr]; rfl⟩
    obtain ⟨L, e6, -⟩ := Reorder.single_calls h.valid h.lenFlux h.cells hno [] [] hfuel
    rw [e4] at e6
    rw [Except.ok.inj e6] at hcs
    obtain ⟨_, _, hc⟩ := List.mem_map.1 hcs
    cases hc
  · right
    rw [e5, bind_ok]
    obtain ⟨b', e6, lb, hb', -⟩ := MiscUtil.both_water_round_trip st.sat both []
    rw [e6, bind_ok]
    rw [hf.sat] at lb hb'
    obtain ⟨z', e7, lz, -, hz'⟩ := surfacevol_matrix (n := E.g.nc) (np := 2) (A := E.A) (sat := b') (z := E.surfvol) (by omega) (by omega) (by omega)
    rw [e7, bind_ok]
    refine ⟨b', z', rfl, lb, by omega, fun c hc => ?_⟩
    obtain ⟨⟨k1, -⟩, y, k2, k3⟩ := hd c hc
    have hlt : ∀ u, E.g.FlowsTo E.flux u c → u < E.g.nc := by
      rintro u ⟨f, q, -, ⟨-, hs⟩ | ⟨-, hs⟩⟩
      · have := h.valid.side_range hs
        omega
      · have := h.valid.side_range hs
        omega
    refine ⟨y, fun u hu => ?_, ?_, (hb' c hc).2, ⟨?_, ?_⟩, ?_⟩
    · rw [(hb' u (hlt u hu)).1]
      obtain ⟨z1, z2, z3⟩ := k2 u hu
      refine ⟨z1, le_trans z2 (le_of_eq ?_), z3⟩
      unfold TwophaseReorder.sweepTol
      norm_num
    · rw [(hb' c hc).1]
      exact k1
    · have := hz' c 0 hc (by omega)
      rw [show c * 2 + 0 = 2 * c by omega, Finset.sum_range_succ, Finset.sum_range_one, show c * (2 * 2) + 2 * 0 + 0 = 4 * c by omega, show c * (2 * 2) + 2 * 1 + 0 = 4 * c + 2 by omega,
        (h.immiscible c hc).2, zero_mul, add_zero, show c * 2 + 0 = 2 * c by omega] at this
      exact this
    · have := hz' c 1 hc (by omega)
      rw [show c * 2 + 1 = 2 * c + 1 by omega, Finset.sum_range_succ, Finset.sum_range_one, show c * (2 * 2) + 2 * 0 + 1 = 4 * c + 1 by omega,
        show c * (2 * 2) + 2 * 1 + 1 = 4 * c + 3 by omega, (h.immiscible c hc).1, zero_mul, zero_add, show c * 2 + 1 = 2 * c + 1 by omega] at this
      exact this
    · rw [(hb' c hc).1, ← v1 c hc, equation_eq]
      exact k3

/-- **Implicit compressible transport.**  For every mesh, flux field, sources, pore volumes before and after, formation volumes and time step, and every fluid without
miscibility, `solve` either throws, which only happens when fluid circulates, or returns saturations between zero and one and their surface volumes, such that in every cell
the water is balanced in surface volumes (see `CellSolved` for the exceptions): exactly with the new saturations of the cells upstream, except for cells in circulation with
the cell, whose saturations may be off by `300·10⁻⁹`. -/
theorem transport_solved {E : Env} (h : TransportData E) {sat ff both : List Rat} (hff : ff.length = E.g.nc) (hl : both.length = 2 * E.g.nc)
    (hb : ∀ c < E.g.nc, 0 ≤ both.getD (2 * c) 0 ∧ both.getD (2 * c) 0 ≤ 1) {fuel : Nat} (hfuel : 2 * E.g.nc + 2 * E.g.nf + 2 ≤ fuel) :
    (¬NoCirculation E.g E.flux ∧ solve fuel E sat ff both = .error .thrown) ∨
    ∃ both' z', solve fuel E sat ff both = .ok (both', z') ∧ both'.length = 2 * E.g.nc ∧ z'.length = 2 * E.g.nc ∧
      ∀ c < E.g.nc, ∃ y : Nat → Rat, (∀ u, E.g.FlowsTo E.flux u c → (0 ≤ y u ∧ y u ≤ 1) ∧ |y u - both'.getD (2 * u) 0| ≤ 300 / 10 ^ 9 ∧
        (¬ReflTransGen (E.g.FlowsTo E.flux) c u → y u = both'.getD (2 * u) 0)) ∧ CellSolved E both both' z' c y :=
  solve_main h hff hl hb hfuel

/-- **Implicit compressible transport without circulation.**  `solve` succeeds, and the new saturations satisfy the balances. -/
theorem transport_solved_upwind {E : Env} (h : TransportData E) (hno : NoCirculation E.g E.flux) {sat ff both : List Rat} (hff : ff.length = E.g.nc)
    (hl : both.length = 2 * E.g.nc) (hb : ∀ c < E.g.nc, 0 ≤ both.getD (2 * c) 0 ∧ both.getD (2 * c) 0 ≤ 1) {fuel : Nat} (hfuel : 2 * E.g.nc + 2 * E.g.nf + 2 ≤ fuel) :
    ∃ both' z', solve fuel E sat ff both = .ok (both', z') ∧ both'.length = 2 * E.g.nc ∧ z'.length = 2 * E.g.nc ∧
      ∀ c < E.g.nc, CellSolved E both both' z' c (fun u => both'.getD (2 * u) 0) := by
  rcases solve_main h hff hl hb hfuel (sat := sat) with ⟨hc, -⟩ | ⟨both', z', e, l, lz, hs⟩
  · exact absurd hno hc
  · refine ⟨both', z', e, l, lz, fun c hc => ?_⟩
    obtain ⟨y, hy, h1, h2, h3, h4⟩ := hs c hc
    refine ⟨h1, h2, h3, ?_⟩
    have : ∀ u, E.g.FlowsTo E.flux u c → y u = both'.getD (2 * u) 0 := fun u hu => (hy u hu).2.2 (fun hr => hno c ((TransGen.tail' hr hu)))
    rw [equation_eq] at h4 ⊢
    rwa [residual_congr h.lenFlux this] at h4

/-- **Water balance.**  Over the whole mesh, the surface volume of water after the step (`z'` is per pore volume) equals what was there before, plus what the sources inject,
minus the water the sinks take, up to the residuals of the equations solved. -/
theorem water_balance {E : Env} (h : TransportData E) (hno : NoCirculation E.g E.flux) {sat ff both : List Rat} (hff : ff.length = E.g.nc) (hl : both.length = 2 * E.g.nc)
    (hb : ∀ c < E.g.nc, 0 ≤ both.getD (2 * c) 0 ∧ both.getD (2 * c) 0 ≤ 1) {fuel : Nat} (hfuel : 2 * E.g.nc + 2 * E.g.nf + 2 ≤ fuel) :
    ∃ (both' z' : List Rat) (ρ : Nat → Rat), solve fuel E sat ff both = .ok (both', z') ∧
      (∀ c < E.g.nc, ρ c = cellEquation E c (fun u => both'.getD (2 * u) 0) (both'.getD (2 * c) 0)) ∧
      ∑ c ∈ Finset.range E.g.nc, E.pv.getD c 0 * z'.getD (2 * c) 0 = ∑ c ∈ Finset.range E.g.nc, E.pv0.getD c 0 * E.surfvol.getD (2 * c) 0 +
        E.dt * (∑ c ∈ Finset.range E.g.nc, max (E.src.getD c 0) 0
          - ∑ c ∈ Finset.range E.g.nc, max (-E.src.getD c 0) 0 * waterVolume E c * share E c (both'.getD (2 * c) 0)) +
          ∑ c ∈ Finset.range E.g.nc, E.pv0.getD c 0 * waterVolume E c * ρ c := by
  obtain ⟨both', z', e, l, -, hs⟩ := transport_solved_upwind h hno hff hl hb hfuel (sat := sat)
  refine ⟨both', z', _, e, fun c _ => rfl, ?_⟩
  have key : ∀ c ∈ Finset.range E.g.nc, E.pv0.getD c 0 * waterVolume E c * cellEquation E c (fun u => both'.getD (2 * u) 0) (both'.getD (2 * c) 0) =
        E.pv.getD c 0 * z'.getD (2 * c) 0 - E.pv0.getD c 0 * E.surfvol.getD (2 * c) 0
          + E.dt * (∑ u ∈ Finset.range E.g.nc, E.g.flowRate E.flux c u * (waterVolume E c * share E c (both'.getD (2 * c) 0))
          - ∑ u ∈ Finset.range E.g.nc, E.g.flowRate E.flux u c * (waterVolume E u * share E u (both'.getD (2 * u) 0)))
          + E.dt * (max (-E.src.getD c 0) 0 * waterVolume E c * share E c (both'.getD (2 * c) 0)) - E.dt * max (E.src.getD c 0) 0 := by
    intro c hc
    have hc := Finset.mem_range.1 hc
    have hp := (h.pvPos c hc).ne'
    have hb : waterVolume E c ≠ 0 := (h.bPos c hc).ne'
    obtain ⟨-, -, ⟨hz, -⟩, -⟩ := hs c hc
    change _ = waterVolume E c * _ at hz
    unfold cellEquation surfaceResidual surfaceBalance
    rw [mul_div_cancel₀ _ (mul_ne_zero hp hb), hz, ← Finset.sum_mul]
    unfold GridTopo.interiorOut
    simp only [mul_assoc]
    ring
  rw [Finset.sum_congr rfl key, Finset.sum_sub_distrib, Finset.sum_add_distrib, Finset.sum_add_distrib, Finset.sum_sub_distrib, ← Finset.mul_sum, ← Finset.mul_sum, ← Finset.mul_sum,
    Finset.sum_sub_distrib, Finset.sum_comm, sub_self]
  ring

/-! ### Non-vacuity -/

/-- Three cells in a row. -/
def row : GridTopo := { nc := 3, nf := 4, faceCells := [-1, 0, 0, 1, 1, 2, 2, -1], cellFacepos := [0, 2, 4, 6], cellFaces := [0, 1, 1, 2, 2, 3] }

/-- Water and oil of different formation volumes in rock that expands in the first cell. -/
def flood : Env := { g := row, relperm := fun _ s o => (s * s, o * o), visc := [1, 2, 1, 3, 1, 2], A := [2, 0, 0, 1, 3 / 2, 0, 0, 1, 1, 0, 0, 1], tol := 1 / 10 ^ 3, maxit := 20, flux := [0, 2, 2, 0], pv0 := [1, 2, 3], pv := [3 / 2, 2, 3], src := [2, 0, -2], surfvol := [1 / 2, 3 / 4, 0, 1, 1 / 4, 3 / 4], dt := 1 / 4 }

theorem flood_data : TransportData flood where
  valid := GridTopo.ValidB.valid (by decide +kernel)
  cells := by decide
  lenFlux := by decide
  lenPv0 := by decide
  lenPv := by decide
  lenSrc := by decide
  lenA := by decide
  lenZ := by decide
  pvPos := by decide +kernel
  immiscible := by decide +kernel
  bPos := by decide +kernel
  zPos := by decide +kernel
  dtPos := by decide +kernel
  tolPos := by decide +kernel
  muPos := by decide +kernel
  krPos := fun c _ s h0 h1 => by
    refine ⟨mul_self_nonneg _, mul_self_nonneg _, ?_⟩
    rcases eq_or_lt_of_le h0 with h | h
    · exact .inr (by subst h; change (0 : Rat) < (1 - 0) * (1 - 0); norm_num)
    · exact .inl (mul_pos h h)
  noWater := fun c _ => by change (0 : Rat) * 0 = 0; norm_num

theorem flood_acyclic : NoCirculation flood.g flood.flux := by
  have hstep : ∀ u d, flood.g.FlowsTo flood.flux u d → u < d := by
    rintro u d ⟨f, q, hq, h⟩
    match f, hq with
    | 0, hq => cases hq; rcases h with h | h <;> exact absurd h.1 (by decide +kernel)
    | 1, hq =>
      cases hq
      rcases h with ⟨-, h1, h2⟩ | ⟨h, -⟩
      · simp [flood, row] at h1 h2; omega
      · exact absurd h (by decide +kernel)
    | 2, hq =>
      cases hq
      rcases h with ⟨-, h1, h2⟩ | ⟨h, -⟩
      · simp [flood, row] at h1 h2; omega
      · exact absurd h (by decide +kernel)
    | 3, hq => cases hq; rcases h with h | h <;> exact absurd h.1 (by decide +kernel)
  intro c h
  have : ∀ a b, TransGen (flood.g.FlowsTo flood.flux) a b → a < b := by
    intro a b h
    induction h with
    | single h => exact hstep _ _ h
    | tail _ h ih => exact lt_trans ih (hstep _ _ h)
  exact lt_irrefl _ (this c c h)

example : ∃ both' z', solve 100 flood [] [0, 0, 0] [1 / 4, 3 / 4, 0, 1, 1 / 4, 3 / 4] = .ok (both', z') ∧
    ∀ c < 3, CellSolved flood [1 / 4, 3 / 4, 0, 1, 1 / 4, 3 / 4] both' z' c (fun u => both'.getD (2 * u) 0) := by
  obtain ⟨b, i, e, -, -, h⟩ := transport_solved_upwind flood_data flood_acyclic (sat := []) (ff := [0, 0, 0]) (both := [1 / 4, 3 / 4, 0, 1, 1 / 4, 3 / 4]) (by decide) (by decide)
    (by decide +kernel) (fuel := 100) (by decide)
  exact ⟨b, i, e, h⟩

/-! ### What the solver does not do -/

private def one : GridTopo := { nc := 1, nf := 0, faceCells := [], cellFacepos := [0, 0], cellFaces := [] }

private def full : Env := { g := one, relperm := fun _ s o => (s * s, o * o), visc := [1, 2], A := [1, 0, 0, 1], tol := 1 / 10 ^ 3, maxit := 20, flux := [], pv0 := [1], pv := [1], src := [10], surfvol := [1 / 2, 1 / 2], dt := 1 }

/-- When more water comes in than the cell can hold, the rest is lost without a word: ten units are injected into a half-full cell, which then holds one. -/
theorem excess_water_lost : solve 100 full [] [0] [1 / 2, 1 / 2] = .ok ([1, 0], [1, 0]) ∧ cellEquation full 0 (fun _ => 1) 1 < 0 := by
  refine ⟨by decide +kernel, ?_⟩
  unfold cellEquation surfaceResidual surfaceBalance GridTopo.interiorOut GridTopo.flowRate
  decide +kernel

private def two : GridTopo := { nc := 2, nf := 1, faceCells := [0, 1], cellFacepos := [0, 1, 2], cellFaces := [0, 0] }

private def miscible (A : List Rat) : Env := { g := two, relperm := fun _ s o => (s, o), visc := [1, 1, 1, 1], A := A, tol := 1 / 10 ^ 3, maxit := 20, flux := [0], pv0 := [1, 1], pv := [1, 1], src := [0, 0], surfvol := [1 / 2, 1 / 2, 1, 1 / 2], dt := 1 }

/-- Miscibility is only detected in the first cell.  In another cell it is not, and the saturations change although nothing flows. -/
theorem miscibility_undetected :
    solve 100 (miscible [1, 0, 1, 1, 1, 0, 0, 1]) [] [0, 0] [1 / 2, 1 / 2, 1 / 2, 1 / 2] = .error .thrown ∧
    solve 100 (miscible [1, 0, 0, 1, 1, 0, 1, 1]) [] [0, 0] [1 / 2, 1 / 2, 1 / 2, 1 / 2] = .ok ([1 / 2, 1 / 2, 1, 0], [1 / 2, 1 / 2, 1, 0]) := by
  constructor <;> decide +kernel

end Opm.CompressibleReorder
