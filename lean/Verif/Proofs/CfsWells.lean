import Verif.Proofs.CfsRows
/-!
# Compressible flow: wells and sources
-/

namespace Opm.CfsTpfa
open Opm.SparseSys
open _root_.Opm.IfsTpfa (numPerf getD_of_getElem? index_ok Sys addSa addB XR Res MatOk ElmAt HasElm SysOk addSa_res addB_res rowDot)

/-- Transmissibility of phase `p` at perforation `k`. -/
def pT (I : Input) (W : Wells.W) (D : Completions) (k p : Nat) : Rat := W.wi.getD k 0 * ent D.phasemob I.cq.np k p

/-- Darcy fluxes of a perforation. -/
def Q (I : Input) (W : Wells.W) (D : Completions) (w k : Nat) : Comp :=
  { flux := fun p => perfVel I W D (given I) 1 w k p, d0 := fun p => pT I W D k p, d1 := fun p => -(pT I W D k p) }

/-- Component fluxes of a perforation. -/
def X (I : Input) (W : Wells.W) (D : Completions) (w k : Nat) : Comp := times I.cq.np (fun j => D.A.getD (k * (I.cq.np * I.cq.np) + j) 0) (Q I W D w k)

theorem X_flux (I : Input) (W : Wells.W) (D : Completions) (w k : Nat) : (X I W D w k).flux = fun i => perfComp I W D (given I) 1 w i k := by
  unfold X times
  dsimp only
  rw [matvec_eq]
  rfl

theorem X_d1 (I : Input) (W : Wells.W) (D : Completions) (w k : Nat) : (X I W D w k).d1 = (-1 : Rat) • (X I W D w k).d0 := by
  unfold X times Q
  dsimp only
  rw [matvec_eq, matvec_eq]
  funext i
  rw [Pi.smul_apply, smul_eq_mul, ← mul_smul']
  refine mul_congr (fun j _ => ?_) i
  rw [Pi.smul_apply, smul_eq_mul]
  ring

theorem X_deriv (I : Input) (W : Wells.W) (D : Completions) (w k : Nat) (y : Nat → Rat) :
    (y (I.G.nc + w) - y (perfCell W k)) • (X I W D w k).d0 = fun i => perfComp I W D y 0 w i k := by
  unfold X times Q
  dsimp only
  rw [matvec_eq]
  funext i
  rw [Pi.smul_apply, smul_eq_mul, ← mul_smul']
  unfold perfComp
  refine mul_congr (fun j _ => ?_) i
  rw [Pi.smul_apply, smul_eq_mul]
  unfold perfVel pT
  ring

theorem perfCell_ok {I : Input} {W : Wells.W} {D : Completions} (hW : WellsOk I W D) {k : Nat} (hk : k < numPerf W) :
    W.cells[k]? = some ((perfCell W k : Nat) : Int) ∧ perfCell W k < I.G.nc := by
  obtain ⟨c, hc, hlt⟩ := hW.cell k hk
  have e : perfCell W k = c := by unfold perfCell; rw [getD_of_getElem? hc]; simp
  rw [e]
  exact ⟨hc, hlt⟩

theorem given_well (I : Input) (w : Nat) : given I (I.G.nc + w) = I.wpress.getD w 0 := by
  unfold given
  rw [if_neg (by omega), Nat.add_sub_cancel_left]

theorem perfDarcy_ok {I : Input} (h : InputOk I) {W : Wells.W} {D : Completions} (hW : WellsOk I W D) (w : Nat) {k : Nat} (hk : k < numPerf W) :
    perfDarcy W D I.cq.np I.cpress (I.wpress.getD w 0) k = .ok (perfCell W k, Q I W D w k) := by
  obtain ⟨hc, hlt⟩ := perfCell_ok hW hk
  have h1 := hW.wdp
  have h2 := hW.wi
  have h3 := hW.np
  have h4 := hW.np3
  have h5 := h.cpress
  unfold perfDarcy
  rw [rd_of_getElem? hc, bind_ok, index_ok, bind_ok, rd_getD (d := 0) (by omega), bind_ok, rd_getD (d := 0) (by omega), bind_ok, rd_getD (d := 0) (by omega), bind_ok, blk hk hW.mob, bind_ok,
    block_ok (by simp only [List.length_cons, List.length_nil]; omega), bind_ok]
  have hz : ∀ j : Nat, ([0, 0, 0] : List Rat).getD (0 + j) 0 = 0 := by
    intro j
    match j with
    | 0 => rfl
    | 1 => rfl
    | 2 => rfl
    | j + 3 =>
      rw [List.getD_eq_getElem?_getD, List.getElem?_eq_none (by simp only [List.length_cons, List.length_nil]; omega)]
      rfl
  unfold Q darcy
  simp only [hz]
  congr 3
  funext p
  unfold perfVel ent
  rw [given_well]
  have : given I (perfCell W k) = I.cpress.getD (perfCell W k) 0 := by unfold given; rw [if_pos hlt]
  rw [this]
  ring

/-- The stored fluxes of perforations are those of the specification. -/
structure PerfOk (I : Input) (W : Wells.W) (D : Completions) (perf : List Comp) : Prop where
  len : numPerf W ≤ perf.length
  eq : ∀ w k, w < W.nw → W.connpos.getD w 0 ≤ k → k < W.connpos.getD (w + 1) 0 → perf.getD k default = X I W D w k

theorem wellCompFlux_ok {I : Input} (h : InputOk I) {W : Wells.W} {D : Completions} (hW : WellsOk I W D) {perf : List Comp} (hl : numPerf W ≤ perf.length) :
    ∃ perf', wellCompFlux W D I.cq.np I.cpress I.wpress perf = .ok perf' ∧ perf'.length = perf.length ∧ PerfOk I W D perf' := by
  unfold wellCompFlux
  rw [check_ok (decide_eq_true hW.np3), bind_ok]
  have hpr := hW.press
  obtain ⟨t, e, h1, h2⟩ := rowLoopPre_inv hW.pos (s := perf) (pre := fun w => rd I.wpress w) (f := fun _ pw i perf => do
    let q ← perfDarcy W D I.cq.np I.cpress pw i
    let A ← block D.A (i * (I.cq.np * I.cq.np)) (I.cq.np * I.cq.np)
    wr perf i (times I.cq.np A q.2)) (fun w => I.wpress.getD w 0) (fun w hw => rd_getD (by omega))
    (fun _ i t => t.length = perf.length ∧ ∀ w k, w < W.nw → W.connpos.getD w 0 ≤ k → k < W.connpos.getD (w + 1) 0 → k < i → t.getD k default = X I W D w k)
    ⟨rfl, fun w k _ _ _ h => absurd h (by omega)⟩
    (by
      rintro w k t hw g1 g2 ⟨hlen, ht⟩
      have hk : k < numPerf W := hW.pos.lt_total hw g2
      rw [perfDarcy_ok h hW w hk, bind_ok, blk hk hW.A, bind_ok, wr_ok (by omega)]
      refine ⟨_, rfl, by simp [hlen], fun w' k' hw' g1' g2' hlt => ?_⟩
      rw [getD_set_list (by omega)]
      by_cases hkk : k' = k
      · subst hkk
        obtain rfl : w' = w := hW.pos.row_unique hw' hw g1' g2' g1 g2
        rw [if_pos rfl]
        rfl
      · rw [if_neg hkk]
        exact ht w' k' hw' g1' g2' (by omega))
    (fun w t _ ht => ht)
  exact ⟨t, e, h1, by omega, fun w k hw g1 g2 => h2 w k hw g1 g2 (hW.pos.lt_total hw g2)⟩

/-- Contribution of perforation `k` to the equation of well `w`, and its change. -/
def perfRes (I : Input) (W : Wells.W) (D : Completions) (w k : Nat) : Mode → Rat
  | .shut => 0
  | .bhp p => (∑ p ∈ Finset.range I.cq.np, W.wi.getD k 0 * ent D.phasemob I.cq.np k p) * (given I (I.G.nc + w) - p)
  | .resv d _ => ∑ p ∈ Finset.range I.cq.np, d p * perfVel I W D (given I) 1 w k p
  | .surf d _ => ∑ i ∈ Finset.range I.cq.np, d i * perfComp I W D (given I) 1 w i k

def perfJac (I : Input) (W : Wells.W) (D : Completions) (w k : Nat) (x : Nat → Rat) : Mode → Rat
  | .shut => (∑ p ∈ Finset.range I.cq.np, W.wi.getD k 0 * ent D.phasemob I.cq.np k p) * x (I.G.nc + w)
  | .bhp _ => (∑ p ∈ Finset.range I.cq.np, W.wi.getD k 0 * ent D.phasemob I.cq.np k p) * x (I.G.nc + w)
  | .resv d _ => ∑ p ∈ Finset.range I.cq.np, d p * perfVel I W D x 0 w k p
  | .surf d _ => ∑ i ∈ Finset.range I.cq.np, d i * perfComp I W D x 0 w i k

/-- The target of a rate control. -/
def Mode.rate : Mode → Rat
  | .shut => 0
  | .bhp _ => 0
  | .resv _ q => q
  | .surf _ q => q

def Mode.open : Mode → Bool
  | .shut => false
  | _ => true

def Mode.isRate : Mode → Bool
  | .shut => false
  | .bhp _ => false
  | .resv _ _ => true
  | .surf _ _ => true

theorem isOpen_of {np : Nat} {W : Wells.W} {w : Nat} {m : Mode} (h : HasMode np W w m) : isOpen W w = m.open := by
  obtain ⟨c, hc, hm⟩ := h
  unfold isOpen
  rw [hc]
  cases m with
  | shut => exact decide_eq_false (by simpa using hm)
  | bhp p => obtain ⟨k, e, _⟩ := hm; exact decide_eq_true (by omega)
  | resv d q => obtain ⟨k, e, _⟩ := hm; exact decide_eq_true (by omega)
  | surf d q => obtain ⟨k, e, _⟩ := hm; exact decide_eq_true (by omega)

theorem isRate_iff {np : Nat} {W : Wells.W} {w : Nat} {m : Mode} (h : HasMode np W w m) :
    m.isRate = true ↔ ∃ d q, HasMode np W w (.resv d q) ∨ HasMode np W w (.surf d q) := by
  have h0 := h
  obtain ⟨c, hc, hm⟩ := h
  have kind : ∀ {c' : Wells.Controls}, W.ctrls[w]? = some c' → c' = c := fun e => by rw [hc] at e; exact (Option.some.inj e).symm
  cases m with
  | shut =>
    refine ⟨fun e => (by cases e), ?_⟩
    rintro ⟨d, q, ⟨c', e, k, ek, _⟩ | ⟨c', e, k, ek, _⟩⟩ <;>
    · obtain rfl := kind e
      dsimp only at hm
      omega
  | bhp p =>
    refine ⟨fun e => (by cases e), ?_⟩
    obtain ⟨k, ek, et, _⟩ := hm
    rintro ⟨d, q, ⟨c', e, k', ek', et', _⟩ | ⟨c', e, k', ek', et', _⟩⟩ <;>
    · obtain rfl := kind e
      obtain rfl : k = k' := by omega
      rw [et] at et'
      cases et'
  | resv d q => exact ⟨fun _ => ⟨d, q, Or.inl h0⟩, fun _ => rfl⟩
  | surf d q => exact ⟨fun _ => ⟨d, q, Or.inr h0⟩, fun _ => rfl⟩

theorem distr_block {np k : Nat} {distr : List Rat} {d : Nat → Rat} (h : ∀ p, p < np → distr[k * np + p]? = some (d p)) :
    ∃ b, block distr (k * np) np = .ok b ∧ ∀ p, p < np → b p = d p := by
  unfold block
  by_cases hle : k * np + np ≤ distr.length
  · rw [if_pos hle]
    exact ⟨_, rfl, fun p hp => getD_of_getElem? (h p hp)⟩
  · exfalso
    rcases Nat.eq_zero_or_pos np with hz | hp
    · subst hz; simp at hle
    · have := h (np - 1) (by omega)
      have := (List.getElem?_eq_some_iff.1 this).1
      omega

theorem wellCoeff_ok {I : Input} {W : Wells.W} {D : Completions} (hW : WellsOk I W D) {w k : Nat} {ctrl : Wells.Controls} {m : Mode} (hm : HasMode I.cq.np W w m)
    (hct : W.ctrls[w]? = some ctrl) :
    ∃ q, wellCoeff W ctrl I.cq.np (I.wpress.getD w 0) (Q I W D w k) (X I W D w k) = .ok q ∧ q.res = perfRes I W D w k m ∧
      ∀ y : Nat → Rat, q.w2w * y (I.G.nc + w) + q.w2c * y (perfCell W k) = perfJac I W D w k y m := by
  obtain ⟨c, hc, hm⟩ := hm
  rw [hct] at hc
  obtain rfl := Option.some.inj hc
  unfold wellCoeff
  cases m with
  | shut =>
    dsimp only at hm
    rw [if_pos hm]
    refine ⟨_, rfl, rfl, fun y => ?_⟩
    dsimp only [perfJac]
    rw [sumN_eq]
    unfold Q pT
    ring
  | bhp p =>
    obtain ⟨j, ej, et, eg⟩ := hm
    rw [if_neg (by omega), ej]
    dsimp only
    rw [Int.toNat_natCast, rd_of_getElem? et, bind_ok]
    dsimp only
    rw [rd_of_getElem? eg, bind_ok]
    refine ⟨_, rfl, ?_, fun y => ?_⟩
    · dsimp only [perfRes]
      rw [sumN_eq, given_well]
      rfl
    · dsimp only [perfJac]
      rw [sumN_eq]
      unfold Q pT
      ring
  | resv d q =>
    obtain ⟨j, ej, et, eg, ed⟩ := hm
    obtain ⟨b, eb, hb⟩ := distr_block ed
    rw [if_neg (by omega), ej]
    dsimp only
    rw [Int.toNat_natCast, rd_of_getElem? et, bind_ok]
    dsimp only
    rw [check_ok (decide_eq_true hW.np), bind_ok, eb, bind_ok]
    refine ⟨_, rfl, ?_, fun y => ?_⟩
    · dsimp only [weighted, perfRes]
      rw [sumN_eq]
      exact Finset.sum_congr rfl fun p hp => by rw [hb p (Finset.mem_range.1 hp)]; rfl
    · dsimp only [weighted, perfJac]
      rw [sumN_eq, sumN_eq, Finset.sum_mul, Finset.sum_mul, ← Finset.sum_add_distrib]
      refine Finset.sum_congr rfl fun p hp => ?_
      rw [hb p (Finset.mem_range.1 hp)]
      unfold Q pT perfVel
      ring
  | surf d q =>
    obtain ⟨j, ej, et, eg, ed⟩ := hm
    obtain ⟨b, eb, hb⟩ := distr_block ed
    rw [if_neg (by omega), ej]
    dsimp only
    rw [Int.toNat_natCast, rd_of_getElem? et, bind_ok]
    dsimp only
    rw [eb, bind_ok]
    refine ⟨_, rfl, ?_, fun y => ?_⟩
    · dsimp only [weighted, perfRes]
      rw [sumN_eq]
      exact Finset.sum_congr rfl fun p hp => by rw [hb p (Finset.mem_range.1 hp), X_flux]
    · dsimp only [weighted, perfJac]
      rw [sumN_eq, sumN_eq, Finset.sum_mul, Finset.sum_mul, ← Finset.sum_add_distrib]
      refine Finset.sum_congr rfl fun p hp => ?_
      rw [hb p (Finset.mem_range.1 hp), X_d1]
      have := congrFun (X_deriv I W D w k y) p
      rw [Pi.smul_apply, smul_eq_mul] at this ⊢
      rw [← this]
      ring

/-- The matrix has room for the wells. -/
structure FitsW (G : GridTopo) (W : Wells.W) (J : Csr) : Prop extends Fits G J where
  m : J.m = G.nc + W.nw
  perf : ∀ w k, w < W.nw → W.connpos.getD w 0 ≤ k → k < W.connpos.getD (w + 1) 0 → HasElm J (perfCell W k) (G.nc + w) ∧ HasElm J (G.nc + w) (perfCell W k)

/-- Contribution of perforation `k` to the row of its cell. -/
def Solver.perf {s : Block → Block} {c : Nat} {I : Input} (hs : Solver I.cq.np I.cq.Ac I.cq.dAc c s) (W : Wells.W) (D : Completions) (w k : Nat) (x : Nat → Rat) : Rat :=
  I.dt * (-(hs.L (fun i => perfComp I W D (given I) 1 w i k)) - hs.L2 (fun i => perfComp I W D (given I) 1 w i k) * x c + hs.L (fun i => perfComp I W D x 0 w i k))

theorem perforation_ok {I : Input} (h : InputOk I) {lu : Lapack} {S : Nat → Block → Block} (hS : Solvers I lu S) {W : Wells.W} {D : Completions} (hW : WellsOk I W D) {J : Csr}
    (hJ : FitsW I.G W J) {perf : List Comp} (hp : PerfOk I W D perf) {w k : Nat} (hw : w < W.nw) (h1 : W.connpos.getD w 0 ≤ k) (h2 : k < W.connpos.getD (w + 1) 0)
    {ctrl : Wells.Controls} {m : Mode} (hm : HasMode I.cq.np W w m) (hct : W.ctrls[w]? = some ctrl) (hc : perfCell W k < I.G.nc) {t : Sys} (ht : SysOk J t) :
    ∃ t', perforation lu J W D I.cq I.G.nc I.dt I.cpress perf w (I.wpress.getD w 0) ctrl k t = .ok t' ∧ SysOk J t' ∧
      ∀ xr : XR, Res J t' xr = Res J t xr + ((if xr.2 = perfCell W k then (if m.open = true then (hS _ hc).2.perf W D w k xr.1 else 0) else 0) +
        if xr.2 = I.G.nc + w then I.dt * (perfRes I W D w k m - perfJac I W D w k xr.1 m) else 0) := by
  have hk : k < numPerf W := hW.pos.lt_total hw h2
  have hop := isOpen_of hm
  unfold isOpen at hop
  rw [hct] at hop
  dsimp only at hop
  obtain ⟨hlu, hs⟩ := hS _ hc
  have hcm : perfCell W k < J.m := by rw [hJ.m]; omega
  have hwm : I.G.nc + w < J.m := by rw [hJ.m]; omega
  obtain ⟨jc, hjc⟩ := hJ.diag _ hcm
  obtain ⟨jw, hjw⟩ := hJ.diag _ hwm
  obtain ⟨⟨j1, hj1⟩, ⟨j2, hj2⟩⟩ := hJ.perf w k hw h1 h2
  obtain ⟨q, eq, hqr, hqj⟩ := wellCoeff_ok (D := D) (k := k) hW hm hct
  have hl := hp.len
  have hlk : k < perf.length := by omega
  have hx : rd perf k = .ok (X I W D w k) := by rw [rd_getD (d := default) hlk, hp.eq w k hw h1 h2]
  unfold perforation
  rw [perfDarcy_ok h hW w hk, bind_ok]
  dsimp only
  rw [blk hc h.Ac, bind_ok, blk hc h.dAc, bind_ok]
  have hinit : initCompletion lu k I.cq.np (fun j => I.cq.Ac.getD (perfCell W k * (I.cq.np * I.cq.np) + j) 0) (fun j => I.cq.dAc.getD (perfCell W k * (I.cq.np * I.cq.np) + j) 0) perf =
      .ok ({ flux := S (perfCell W k) (X I W D w k).flux, d0 := S (perfCell W k) (X I W D w k).d0, d1 := S (perfCell W k) (X I W D w k).d1 },
        S (perfCell W k) (matvec I.cq.np I.cq.np (fun j => I.cq.dAc.getD (perfCell W k * (I.cq.np * I.cq.np) + j) 0) (S (perfCell W k) (X I W D w k).flux))) := by
    unfold initCompletion factorise
    rw [hx, bind_ok, hlu]
    rfl
  rw [hinit, bind_ok]
  have hcell : ∃ t', (if 0 ≤ ctrl.current then completionToCell J (perfCell W k) (I.G.nc + w) I.cq.np I.dt
      ({ flux := S (perfCell W k) (X I W D w k).flux, d0 := S (perfCell W k) (X I W D w k).d0, d1 := S (perfCell W k) (X I W D w k).d1 },
        S (perfCell W k) (matvec I.cq.np I.cq.np (fun j => I.cq.dAc.getD (perfCell W k * (I.cq.np * I.cq.np) + j) 0) (S (perfCell W k) (X I W D w k).flux))) t else .ok t) = .ok t' ∧ SysOk J t' ∧
      ∀ xr : XR, Res J t' xr = Res J t xr + (if xr.2 = perfCell W k then (if m.open = true then hs.perf W D w k xr.1 else 0) else 0) := by
    by_cases ho : 0 ≤ ctrl.current
    · have hmo : m.open = true := by rw [← hop]; exact decide_eq_true ho
      rw [if_pos ho]
      unfold completionToCell
      dsimp only
      obtain ⟨t1, e1, k1, _, r1⟩ := addB_res ht hcm (-(I.dt * sumN I.cq.np (S (perfCell W k) (X I W D w k).flux)))
      rw [e1, bind_ok, check_ok (decide_eq_true (by omega)), bind_ok, hjc.2.1, bind_ok, hj1.2.1, bind_ok]
      obtain ⟨t2, e2, k2, _, r2⟩ := addSa_res hJ.mat k1 hjc
        (I.dt * sumN I.cq.np (S (perfCell W k) (matvec I.cq.np I.cq.np (fun j => I.cq.dAc.getD (perfCell W k * (I.cq.np * I.cq.np) + j) 0) (S (perfCell W k) (X I W D w k).flux))))
      obtain ⟨t3, e3, k3, _, r3⟩ := addSa_res hJ.mat k2 hjc (I.dt * sumN I.cq.np (S (perfCell W k) (X I W D w k).d0))
      obtain ⟨t4, e4, k4, _, r4⟩ := addSa_res hJ.mat k3 hj1 (I.dt * sumN I.cq.np (S (perfCell W k) (X I W D w k).d1))
      rw [e2, bind_ok, e3, bind_ok, e4]
      refine ⟨t4, rfl, k4, fun xr => ?_⟩
      rw [r4, r3, r2, r1]
      by_cases hr : xr.2 = perfCell W k
      · simp only [if_pos hr, if_pos hmo]
        unfold Solver.perf
        rw [hs.L_eq, hs.L_eq, hs.L_eq, hs.L_eq, matvec_eq, ← hs.L2_eq, X_d1, LinearMap.map_smul, smul_eq_mul, ← X_deriv, LinearMap.map_smul, smul_eq_mul, X_flux]
        ring
      · simp only [if_neg hr, add_zero]
    · have hmo : m.open = false := by rw [← hop]; exact decide_eq_false ho
      rw [if_neg ho]
      refine ⟨t, rfl, ht, fun xr => ?_⟩
      rw [hmo]
      simp
  obtain ⟨t1, e1, k1, r1⟩ := hcell
  have hwell : ∃ t', completionToWell J W ctrl w (perfCell W k) I.G.nc I.cq.np (I.wpress.getD w 0) I.dt (Q I W D w k) (X I W D w k) t1 = .ok t' ∧ SysOk J t' ∧
      ∀ xr : XR, Res J t' xr = Res J t xr + ((if xr.2 = perfCell W k then (if m.open = true then hs.perf W D w k xr.1 else 0) else 0) +
        if xr.2 = I.G.nc + w then I.dt * (perfRes I W D w k m - perfJac I W D w k xr.1 m) else 0) := by
    unfold completionToWell
    rw [eq, bind_ok, hj2.2.1, bind_ok, hjw.2.1, bind_ok]
    obtain ⟨t2, e2, k2, _, r2⟩ := addB_res k1 hwm (I.dt * q.res)
    obtain ⟨t3, e3, k3, _, r3⟩ := addSa_res hJ.mat k2 hj2 (I.dt * q.w2c)
    obtain ⟨t4, e4, k4, _, r4⟩ := addSa_res hJ.mat k3 hjw (I.dt * q.w2w)
    rw [e2, bind_ok, e3, bind_ok, e4]
    refine ⟨t4, rfl, k4, fun xr => ?_⟩
    rw [r4, r3, r2, r1, hqr, ← hqj xr.1]
    by_cases hr : xr.2 = I.G.nc + w
    · simp only [if_pos hr]; ring
    · simp only [if_neg hr]; ring
  by_cases ho : 0 ≤ ctrl.current
  · rw [if_pos ho] at e1 ⊢
    rw [e1, bind_ok, hx, bind_ok]
    exact hwell
  · rw [if_neg ho] at e1 ⊢
    rw [e1, bind_ok, hx, bind_ok]
    exact hwell

theorem wellContrib_ok {I : Input} (h : InputOk I) {lu : Lapack} {S : Nat → Block → Block} (hS : Solvers I lu S) {W : Wells.W} {D : Completions} (hW : WellsOk I W D) {J : Csr}
    (hJ : FitsW I.G W J) {perf : List Comp} (hp : PerfOk I W D perf) {M : Nat → Mode} (hM : ∀ w, w < W.nw → HasMode I.cq.np W w (M w)) {t : Sys} (ht : SysOk J t)
    {P : Nat → Nat → (Nat → Rat) → Rat} (hP : ∀ w k (hc : perfCell W k < I.G.nc) x, P w k x = (hS _ hc).2.perf W D w k x) :
    ∃ t' neu, wellContrib lu J W D I.cq I.dt I.cpress I.wpress perf t = .ok (t', neu) ∧ SysOk J t' ∧ (neu = true ↔ ∀ w, w < W.nw → (M w).isRate = true) ∧
      ∀ xr : XR, Res J t' xr = Res J t xr + ∑ w ∈ Finset.range W.nw, ((∑ k ∈ Finset.Ico (W.connpos.getD w 0) (W.connpos.getD (w + 1) 0),
        ((if xr.2 = perfCell W k then (if (M w).open = true then P w k xr.1 else 0) else 0) +
        if xr.2 = I.G.nc + w then I.dt * (perfRes I W D w k (M w) - perfJac I W D w k xr.1 (M w)) else 0)) - if xr.2 = I.G.nc + w then I.dt * (M w).rate else 0) := by
  have hnc : J.m - W.nw = I.G.nc := by rw [hJ.m]; omega
  have hpr := hW.press
  unfold wellContrib
  dsimp only
  rw [hnc]
  obtain ⟨r, e, h1, h2, h3, h4⟩ := loop_inv (n := W.nw) (s := (⟨0, t, true⟩ : WellState)) (f := fun w (r : WellState) => do
    let pw ← rd I.wpress w
    let ctrl ← rd W.ctrls w
    let e ← rd W.connpos (w + 1)
    let s ← forRange r.i e (perforation lu J W D I.cq I.G.nc I.dt I.cpress perf w pw ctrl) r.sys
    let i := max r.i e
    if 0 ≤ ctrl.current then do
      let ty ← rd ctrl.type ctrl.current.toNat
      if ty ≠ .bhp then do
        let t ← rd ctrl.target ctrl.current.toNat
        let s ← addB (I.G.nc + w) (-(I.dt * t)) s
        .ok { i := i, sys := s, neumann := r.neumann }
      else .ok { i := i, sys := s, neumann := false }
    else .ok { i := i, sys := s, neumann := false })
    (fun n r => r.i = W.connpos.getD n 0 ∧ SysOk J r.sys ∧ (r.neumann = true ↔ ∀ w, w < n → (M w).isRate = true) ∧
      ∀ xr : XR, Res J r.sys xr = Res J t xr + ∑ w ∈ Finset.range n, ((∑ k ∈ Finset.Ico (W.connpos.getD w 0) (W.connpos.getD (w + 1) 0),
        ((if xr.2 = perfCell W k then (if (M w).open = true then P w k xr.1 else 0) else 0) +
        if xr.2 = I.G.nc + w then I.dt * (perfRes I W D w k (M w) - perfJac I W D w k xr.1 (M w)) else 0)) - if xr.2 = I.G.nc + w then I.dt * (M w).rate else 0))
    ⟨hW.pos.get_zero.symm, ht, by simp, by simp⟩
    (by
      rintro w r hw ⟨h1, h2, h3, h4⟩
      have hle := hW.pos.le hw
      have hmw := hM w hw
      obtain ⟨ctrl, hct, hmode⟩ := hmw
      have hmw : HasMode I.cq.np W w (M w) := ⟨ctrl, hct, hmode⟩
      rw [rd_getD (d := 0) (by omega), bind_ok, rd_of_getElem? hct, bind_ok, rd_of_getElem? (hW.pos.get (c := w + 1) hw), bind_ok, h1]
      obtain ⟨t1, e1, k1, r1⟩ := forRange_sum (s := r.sys) (f := perforation lu J W D I.cq I.G.nc I.dt I.cpress perf w (I.wpress.getD w 0) ctrl) hle (SysOk J) (Res J)
        (fun k (xr : XR) => (if xr.2 = perfCell W k then (if (M w).open = true then P w k xr.1 else 0) else 0) +
          if xr.2 = I.G.nc + w then I.dt * (perfRes I W D w k (M w) - perfJac I W D w k xr.1 (M w)) else 0) h2
        (by
          intro k u g1 g2 hu
          have hc := (perfCell_ok hW (hW.pos.lt_total hw g2)).2
          obtain ⟨u', e, k', r'⟩ := perforation_ok h hS hW hJ hp hw g1 g2 hmw hct hc hu
          exact ⟨u', e, k', fun xr => by rw [r', hP w k hc]⟩)
      rw [e1, bind_ok]
      have hi : max (W.connpos.getD w 0) (W.connpos.getD (w + 1) 0) = W.connpos.getD (w + 1) 0 := by omega
      have hwm : I.G.nc + w < J.m := by rw [hJ.m]; omega
      -- what is left to show once the target has been subtracted
      have fin : ∀ (u : Sys) (b : Bool), SysOk J u → (∀ xr : XR, Res J u xr = Res J t1 xr - if xr.2 = I.G.nc + w then I.dt * (M w).rate else 0) →
          (b = true ↔ r.neumann = true ∧ (M w).isRate = true) →
          (max (W.connpos.getD w 0) (W.connpos.getD (w + 1) 0) = W.connpos.getD (w + 1) 0 ∧ SysOk J u ∧ (b = true ↔ ∀ w', w' < w + 1 → (M w').isRate = true) ∧
            ∀ xr : XR, Res J u xr = Res J t xr + ∑ w ∈ Finset.range (w + 1), ((∑ k ∈ Finset.Ico (W.connpos.getD w 0) (W.connpos.getD (w + 1) 0),
              ((if xr.2 = perfCell W k then (if (M w).open = true then P w k xr.1 else 0) else 0) +
              if xr.2 = I.G.nc + w then I.dt * (perfRes I W D w k (M w) - perfJac I W D w k xr.1 (M w)) else 0)) - if xr.2 = I.G.nc + w then I.dt * (M w).rate else 0)) := by
        intro u b hu hr hb
        refine ⟨hi, hu, ?_, fun xr => ?_⟩
        · rw [hb, h3]
          constructor
          · rintro ⟨p1, p2⟩ w' hw'
            rcases Nat.lt_or_ge w' w with hl | hl
            · exact p1 w' hl
            · obtain rfl : w' = w := by omega
              exact p2
          · intro p
            exact ⟨fun w' hl => p w' (by omega), p w (by omega)⟩
        · rw [hr, r1, h4, Finset.sum_range_succ]
          ring
      cases hmm : M w with
      | shut =>
        rw [hmm] at hmode
        dsimp only at hmode
        rw [if_neg (by omega)]
        exact ⟨_, rfl, fin t1 false k1 (fun xr => by rw [hmm]; simp [Mode.rate]) (by rw [hmm]; simp [Mode.isRate])⟩
      | bhp p =>
        rw [hmm] at hmode
        obtain ⟨j, ej, et, eg⟩ := hmode
        rw [if_pos (by omega), ej, Int.toNat_natCast, rd_of_getElem? et, bind_ok, if_neg (by simp)]
        exact ⟨_, rfl, fin t1 false k1 (fun xr => by rw [hmm]; simp [Mode.rate]) (by rw [hmm]; simp [Mode.isRate])⟩
      | resv d q =>
        rw [hmm] at hmode
        obtain ⟨j, ej, et, eg, _⟩ := hmode
        obtain ⟨t2, e2, k2, _, r2⟩ := addB_res k1 hwm (-(I.dt * q))
        rw [if_pos (by omega), ej, Int.toNat_natCast, rd_of_getElem? et, bind_ok, if_pos (by simp), rd_of_getElem? eg, bind_ok, e2, bind_ok]
        refine ⟨_, rfl, fin t2 r.neumann k2 (fun xr => ?_) (by rw [hmm]; simp [Mode.isRate])⟩
        rw [r2, hmm]
        dsimp only [Mode.rate]
        split <;> ring
      | surf d q =>
        rw [hmm] at hmode
        obtain ⟨j, ej, et, eg, _⟩ := hmode
        obtain ⟨t2, e2, k2, _, r2⟩ := addB_res k1 hwm (-(I.dt * q))
        rw [if_pos (by omega), ej, Int.toNat_natCast, rd_of_getElem? et, bind_ok, if_pos (by simp), rd_of_getElem? eg, bind_ok, e2, bind_ok]
        refine ⟨_, rfl, fin t2 r.neumann k2 (fun xr => ?_) (by rw [hmm]; simp [Mode.isRate])⟩
        rw [r2, hmm]
        dsimp only [Mode.rate]
        split <;> ring)
  rw [e, bind_ok]
  exact ⟨r.sys, r.neumann, rfl, h2, h3, h4⟩

theorem sources_ok {I : Input} {src : Sources.CSrc} (hs : SrcOk I src) {J : Csr} (hJ : I.G.nc ≤ J.m) {t : Sys} (ht : SysOk J t) :
    ∃ t', sources J I.dt src t = .ok t' ∧ SysOk J t' ∧
      ∀ xr : XR, Res J t' xr = Res J t xr + ∑ i ∈ Finset.range src.nsrc, if (src.cell.getD i 0) = (xr.2 : Int) then -(I.dt * src.flux.getD i 0) else 0 := by
  unfold sources
  refine loop_sum (SysOk J) (Res J) _ ht ?_
  intro i u hi hu
  obtain ⟨c, hc, hlt⟩ := hs.cell i hi
  have hf := hs.flux
  rw [rd_of_getElem? hc, bind_ok, check_ok (decide_eq_true (by omega)), bind_ok, check_ok (decide_eq_true (by rw [Int.toNat_natCast]; omega)), bind_ok, rd_getD (d := 0) (by omega), bind_ok,
    Int.toNat_natCast]
  obtain ⟨u', e, k, _, r⟩ := addB_res hu (i := c) (by omega) (-(I.dt * src.flux.getD i 0))
  refine ⟨u', e, k, fun xr => ?_⟩
  rw [r, getD_of_getElem? hc]
  congr 1
  by_cases hx : xr.2 = c
  · rw [if_pos hx, if_pos (by omega)]
  · rw [if_neg hx, if_neg (by omega)]

end Opm.CfsTpfa
