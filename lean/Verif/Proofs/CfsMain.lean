import Verif.Proofs.CfsWells
import Verif.Proofs.IfsSingular
/-!
# Compressible flow: construction and the whole assembly
-/

namespace Opm.CfsTpfa
open Opm.SparseSys
open _root_.Opm.IfsTpfa (numPerf getD_of_getElem? index_ok Sys addSa addB XR Res MatOk ElmAt HasElm SysOk addSa_res addB_res rowDot Pattern IsPerf vectorZero_ok rowDot_set)

/-- The same perforations, with all wells shut. -/
def shutW (W : Wells.W) : Wells.W :=
  { W with wi := List.replicate (numPerf W) 0, ctrls := List.replicate W.nw { num := 0, type := [], target := [], distr := [], current := -1, cpty := 0 } }

theorem shutW_ok {G : GridTopo} {W : Wells.W} (h : PerfsOk G W) : IfsTpfa.WellsOk G (shutW W) where
  pos := h.pos
  cell := h.cell
  wi := by simp [shutW, numPerf]
  mode := fun w hw => ⟨.shut, ⟨_, by
    show (List.replicate W.nw _)[w]? = some _
    rw [List.getElem?_replicate, if_pos (by exact hw)], (by decide : (-1 : Int) < 0)⟩⟩

/-- What is known about the data. -/
structure DataOk (G : GridTopo) (Wc : Option Wells.W) (h : Data) : Prop where
  pat : Pattern G (Wc.map shutW) h.J
  sys : SysOk h.J h.sys
  face : G.nf ≤ h.face.length
  perf : ∀ W, Wc = some W → numPerf W ≤ h.perf.length
  scratch : G.nf ≤ h.scratch.length

theorem constructMatrix_shut (junk : Nat → Nat) (G : GridTopo) (Wc : Option Wells.W) : IfsTpfa.constructMatrix junk G Wc = IfsTpfa.constructMatrix junk G (Wc.map shutW) := by
  cases Wc <;> rfl

theorem construct_ok (junk : Nat → Nat) (jd : Nat → Rat) (jc : Nat → Comp) {G : GridTopo} (hv : G.Valid) (hnc : 0 < G.nc) {Wc : Option Wells.W}
    (hW : ∀ W, Wc = some W → PerfsOk G W) : ∃ h, construct junk jd jc G Wc = .ok h ∧ DataOk G Wc h := by
  obtain ⟨A, e, hA⟩ := IfsTpfa.constructMatrix_ok junk hv hnc (W := Wc.map shutW) (by
    intro W' hW'
    obtain ⟨W, e, rfl⟩ := Option.map_eq_some_iff.1 hW'
    exact shutW_ok (hW W e))
  unfold construct
  rw [constructMatrix_shut, e, bind_ok]
  cases Wc with
  | none =>
    dsimp only
    rw [bind_ok]
    exact ⟨_, rfl, hA, ⟨by simp, by simp⟩, by simp, fun W h => by (cases h), by simp⟩
  | some W =>
    dsimp only
    have hp := (hW W rfl).pos
    rw [rd_of_getElem? (hp.get (c := W.nw) (le_refl _)), bind_ok]
    exact ⟨_, rfl, hA, ⟨by simp, by simp⟩, by simp, fun W' h => by (cases h; simp [numPerf]), by simp⟩

theorem Made.ok {G : GridTopo} {F : Forces} {h : Data} (hv : G.Valid) (hnc : 0 < G.nc) (hm : Made G F h) :
    ∃ Wc, (∀ W, Wc = some W → PerfsOk G W) ∧ SameWells F Wc ∧ DataOk G Wc h := by
  obtain ⟨junk, jd, jc, Wc, h0, hW, hF, e, hs⟩ := hm
  obtain ⟨h0', e', hd⟩ := construct_ok junk jd jc hv hnc hW
  rw [e] at e'
  cases e'
  refine ⟨Wc, hW, hF, ⟨hs.J ▸ hd.pat, ⟨?_, ?_⟩, ?_, fun W hw => ?_, ?_⟩⟩
  · rw [hs.sa, hs.J]; exact hd.sys.1
  · rw [hs.b, hs.J]; exact hd.sys.2
  · rw [hs.face]; exact hd.face
  · rw [hs.perf]; exact hd.perf W hw
  · rw [hs.scratch]; exact hd.scratch

theorem DataOk.fits {G : GridTopo} {Wc : Option Wells.W} {h : Data} (hd : DataOk G Wc h) (hv : G.Valid) : Fits G h.J where
  mat := hd.pat.mat
  nc := by rw [hd.pat.m]; omega
  diag := fun _ hi => hd.pat.diag hi
  adj := fun _ _ _ hs => hd.pat.adj hv hs

theorem DataOk.fitsW {G : GridTopo} {Wc : Option Wells.W} {h : Data} (hd : DataOk G Wc h) (hv : G.Valid) (hP : ∀ W, Wc = some W → PerfsOk G W) {F : Forces} (hF : SameWells F Wc) {W : Wells.W}
    {D : Completions} (hW : F.wells = some (W, D)) : FitsW G W h.J ∧ numPerf W ≤ h.perf.length := by
  obtain ⟨W', rfl, e1, e2, e3⟩ := hF W D hW
  have hp := hP W' rfl
  have hpos := hp.pos
  refine ⟨{ toFits := hd.fits hv, m := ?_, perf := fun w k hw h1 h2 => ?_ }, ?_⟩
  · rw [hd.pat.m, e1]; rfl
  · rw [e2] at h1 h2
    rw [e1] at hw
    obtain ⟨c, hc, _⟩ := hp.cell k (hpos.lt_total hw h2)
    have ec : perfCell W k = c := by unfold perfCell; rw [e3, getD_of_getElem? hc]; simp
    rw [ec]
    exact Pattern.perf (W := shutW W') hd.pat (shutW_ok hp) hw ⟨_, _, hpos.get (by omega), hpos.get (c := w + 1) hw, h1, h2, hc⟩
  · have := hd.perf W' rfl
    unfold numPerf at *
    rw [e1, e2]; exact this

/-! ## The whole assembly -/

/-- Residual less matrix times `x` for row `r`. -/
structure RowsOk (I : Input) (lu : Lapack) (S : Nat → Block → Block) (hS : Solvers I lu S) (R : (Nat → Rat) → Nat → Rat) : Prop where
  cell : ∀ c (hc : c < I.G.nc) x, R x c = I.porevol.getD c 0 - (hS c hc).2.L (fun i => T0 I c i + I.dt * wellComp I (given I) 1 i c)
    - (hS c hc).2.L2 (fun i => T0 I c i + I.dt * wellComp I (given I) 1 i c) * x c
    - (hS c hc).2.L (fun i => I.dt * I.G.netOutflow (faceComp I x 0 i) c - I.dt * wellComp I x 0 i c) - I.dt * srcVol I c
  well : ∀ W D, I.F.wells = some (W, D) → ∀ w m, w < W.nw → HasMode I.cq.np W w m → ∀ x, R x (I.G.nc + w) = wellRes I W D w m - wellJac I W D w x m

theorem wellRes_eq (I : Input) (W : Wells.W) (D : Completions) (w : Nat) (m : Mode) : wellRes I W D w m = I.dt * (perfSum W w (fun k => perfRes I W D w k m) - m.rate) := by
  cases m with
  | shut => simp [wellRes, perfRes, perfSum, Mode.rate]
  | bhp p =>
    simp only [wellRes, perfRes, perfSum, Mode.rate, wellTrans, Finset.sum_mul]
    ring
  | resv d q => rfl
  | surf d q => rfl

theorem wellJac_eq (I : Input) (W : Wells.W) (D : Completions) (w : Nat) (x : Nat → Rat) (m : Mode) : wellJac I W D w x m = I.dt * perfSum W w (fun k => perfJac I W D w k x m) := by
  cases m with
  | shut => simp only [wellJac, perfJac, perfSum, wellTrans, Finset.sum_mul]
  | bhp p => simp only [wellJac, perfJac, perfSum, wellTrans, Finset.sum_mul]
  | resv d q => rfl
  | surf d q => rfl

/-- A linear functional of what wells put into a cell. -/
theorem map_wellComp (T : (Nat → Rat) →ₗ[Rat] Rat) {I : Input} {W : Wells.W} {D : Completions} (hW : I.F.wells = some (W, D)) (x : Nat → Rat) (g : Rat) (c : Nat) :
    T (fun i => wellComp I x g i c) = ∑ w ∈ Finset.range W.nw, ∑ k ∈ Finset.Ico (W.connpos.getD w 0) (W.connpos.getD (w + 1) 0),
      if isOpen W w = true ∧ perfCell W k = c then T (fun i => perfComp I W D x g w i k) else 0 := by
  unfold wellComp
  rw [hW]
  dsimp only
  rw [map_sum_fun]
  refine Finset.sum_congr rfl fun w _ => ?_
  rw [map_sum_fun]
  refine Finset.sum_congr rfl fun k _ => ?_
  split
  · rfl
  · exact LinearMap.map_zero T

theorem T_add_smul (T : (Nat → Rat) →ₗ[Rat] Rat) (a b : Nat → Rat) (d : Rat) : T (fun i => a i + d * b i) = T a + d * T b := by
  have : (fun i => a i + d * b i) = a + d • b := by funext i; simp
  rw [this, LinearMap.map_add, LinearMap.map_smul, smul_eq_mul]

theorem T_sub_smul (T : (Nat → Rat) →ₗ[Rat] Rat) (a b : Nat → Rat) (d : Rat) : T (fun i => d * a i - d * b i) = d * T a - d * T b := by
  have : (fun i => d * a i - d * b i) = d • a + (-d) • b := by funext i; simp [sub_eq_add_neg]
  rw [this, LinearMap.map_add, LinearMap.map_smul, LinearMap.map_smul, smul_eq_mul, smul_eq_mul]
  ring

theorem srcPart_ok {I : Input} (h : InputOk I) {d : Data} (hJ : I.G.nc ≤ d.J.m) {t : Sys} (ht : SysOk d.J t) :
    ∃ t', srcPart I.F I.dt I.cq.np d t = .ok t' ∧ SysOk d.J t' ∧ ∀ xr : XR, Res d.J t' xr = Res d.J t xr - if xr.2 < I.G.nc then I.dt * srcVol I xr.2 else 0 := by
  unfold srcPart srcVol
  cases hs : I.F.src with
  | none => exact ⟨t, rfl, ht, fun xr => by simp⟩
  | some src =>
    have ho := h.src src hs
    obtain ⟨t', e, k, r⟩ := sources_ok ho hJ ht
    dsimp only
    rw [check_ok (decide_eq_true ho.np), bind_ok, e]
    refine ⟨t', rfl, k, fun xr => ?_⟩
    rw [r, sub_eq_add_neg]
    congr 1
    by_cases hx : xr.2 < I.G.nc
    · rw [if_pos hx, Finset.mul_sum, ← Finset.sum_neg_distrib]
      exact Finset.sum_congr rfl fun i _ => by split <;> ring
    · rw [if_neg hx, neg_zero]
      refine Finset.sum_eq_zero fun i hi => ?_
      obtain ⟨c, hc, hlt⟩ := ho.cell i (Finset.mem_range.1 hi)
      rw [getD_of_getElem? hc, if_neg (by omega)]

theorem wellsPart_ok {I : Input} (h : InputOk I) {lu : Lapack} {S : Nat → Block → Block} (hS : Solvers I lu S) {Wc : Option Wells.W} {d : Data} (hP : ∀ W, Wc = some W → PerfsOk I.G W)
    (hF : SameWells I.F Wc) (hd : DataOk I.G Wc d) {t : Sys} (ht : SysOk d.J t) :
    ∃ t' neu perf', wellsPart lu I.F I.dt I.cq I.cpress I.wpress d t = .ok (t', neu, perf') ∧ SysOk d.J t' ∧ perf'.length = d.perf.length ∧ (neu = true ↔ AllRate I) ∧
      (∀ c (hc : c < I.G.nc) x, Res d.J t' (x, c) = Res d.J t (x, c) - I.dt * (hS c hc).2.L (fun i => wellComp I (given I) 1 i c)
        - I.dt * (hS c hc).2.L2 (fun i => wellComp I (given I) 1 i c) * x c + I.dt * (hS c hc).2.L (fun i => wellComp I x 0 i c)) ∧
      (∀ W D, I.F.wells = some (W, D) → ∀ w m, w < W.nw → HasMode I.cq.np W w m → ∀ x, Res d.J t' (x, I.G.nc + w) = Res d.J t (x, I.G.nc + w) + wellRes I W D w m - wellJac I W D w x m) := by
  unfold wellsPart
  cases hw : I.F.wells with
  | none =>
    refine ⟨t, true, d.perf, rfl, ht, rfl, ⟨fun _ W D e => (by rw [hw] at e; cases e), fun _ => rfl⟩, fun c hc x => ?_, fun W D e => by (cases e)⟩
    have : ∀ (x : Nat → Rat) (g : Rat), (fun i => wellComp I x g i c) = (0 : Nat → Rat) := by
      intro x g; funext i; unfold wellComp; rw [hw]; rfl
    rw [this, this, LinearMap.map_zero, LinearMap.map_zero]
    ring
  | some WD =>
    obtain ⟨W, D⟩ := WD
    have hW := h.wells W D hw
    obtain ⟨hJ, hl⟩ := hd.fitsW h.valid hP hF hw
    obtain ⟨perf, e1, l1, hp⟩ := wellCompFlux_ok h hW hl
    have hmode : ∀ w, ∃ m, w < W.nw → HasMode I.cq.np W w m := by
      intro w
      by_cases hlt : w < W.nw
      · obtain ⟨m, hm⟩ := hW.mode w hlt; exact ⟨m, fun _ => hm⟩
      · exact ⟨.shut, fun h => absurd h hlt⟩
    choose M0 hM0 using hmode
    -- the theorem holds for any choice of modes
    have main : ∀ M : Nat → Mode, (∀ w, w < W.nw → HasMode I.cq.np W w (M w)) → ∃ t' neu, wellContrib lu d.J W D I.cq I.dt I.cpress I.wpress perf t = .ok (t', neu) ∧ SysOk d.J t' ∧
        (neu = true ↔ ∀ w, w < W.nw → (M w).isRate = true) ∧
        (∀ c (hc : c < I.G.nc) x, Res d.J t' (x, c) = Res d.J t (x, c) - I.dt * (hS c hc).2.L (fun i => wellComp I (given I) 1 i c)
          - I.dt * (hS c hc).2.L2 (fun i => wellComp I (given I) 1 i c) * x c + I.dt * (hS c hc).2.L (fun i => wellComp I x 0 i c)) ∧
        (∀ w, w < W.nw → ∀ x, Res d.J t' (x, I.G.nc + w) = Res d.J t (x, I.G.nc + w) + wellRes I W D w (M w) - wellJac I W D w x (M w)) := by
      intro M hM
      obtain ⟨t', neu, e2, k2, hn, hr⟩ := wellContrib_ok h hS hW hJ hp hM ht
        (P := fun w k x => if hc : perfCell W k < I.G.nc then (hS _ hc).2.perf W D w k x else 0) (fun w k hc x => by simp only [dif_pos hc])
      refine ⟨t', neu, e2, k2, hn, fun c hc x => ?_, fun w hlt x => ?_⟩
      · rw [hr]
        have hz : ∀ w : Nat, ¬ c = I.G.nc + w := fun w => by omega
        simp only [if_neg (hz _), add_zero, sub_zero]
        rw [map_wellComp _ hw, map_wellComp _ hw, map_wellComp _ hw]
        rw [show ∀ a b c d : Rat, a - b - c + d = a + (-b - c + d) from fun a b c d => by ring]
        congr 1
        simp only [Finset.mul_sum, Finset.sum_mul]
        rw [← Finset.sum_neg_distrib, ← Finset.sum_sub_distrib, ← Finset.sum_add_distrib]
        refine Finset.sum_congr rfl fun w hwm => ?_
        rw [← Finset.sum_neg_distrib, ← Finset.sum_sub_distrib, ← Finset.sum_add_distrib]
        refine Finset.sum_congr rfl fun k _ => ?_
        rw [← isOpen_of (hM w (Finset.mem_range.1 hwm))]
        by_cases hx : c = perfCell W k
        · subst hx
          by_cases ho : isOpen W w = true
          · simp only [ho, and_self, if_true, dif_pos hc]
            unfold Solver.perf
            ring
          · simp only [ho, if_false, and_true]
            simp
        · rw [if_neg hx]
          simp only [if_neg (fun hh : isOpen W w = true ∧ perfCell W k = c => hx hh.2.symm)]
          ring
      · rw [hr, wellRes_eq, wellJac_eq]
        dsimp only
        have hz : ∀ w' k, w' < W.nw → k < W.connpos.getD (w' + 1) 0 → ¬ I.G.nc + w = perfCell W k := by
          intro w' k hw' hk
          have := (perfCell_ok hW (hW.pos.lt_total hw' hk)).2
          omega
        rw [Finset.sum_eq_single w]
        · rw [if_pos rfl]
          unfold perfSum
          have : ∀ k ∈ Finset.Ico (W.connpos.getD w 0) (W.connpos.getD (w + 1) 0),
              ((if I.G.nc + w = perfCell W k then (if (M w).open = true then (if hc : perfCell W k < I.G.nc then (hS _ hc).2.perf W D w k x else 0) else 0) else 0) +
              if I.G.nc + w = I.G.nc + w then I.dt * (perfRes I W D w k (M w) - perfJac I W D w k x (M w)) else 0) =
              I.dt * perfRes I W D w k (M w) - I.dt * perfJac I W D w k x (M w) := by
            intro k hk
            rw [if_neg (hz w k hlt (Finset.mem_Ico.1 hk).2), if_pos rfl]
            ring
          rw [Finset.sum_congr rfl this, Finset.sum_sub_distrib, ← Finset.mul_sum, ← Finset.mul_sum]
          ring
        · intro w' hw' hne
          have hwm := Finset.mem_range.1 hw'
          have hn' : ¬ I.G.nc + w = I.G.nc + w' := by omega
          simp only [if_neg hn', add_zero, sub_zero]
          refine Finset.sum_eq_zero fun k hk => ?_
          rw [if_neg (hz w' k hwm (Finset.mem_Ico.1 hk).2)]
        · intro hn'
          exact absurd (Finset.mem_range.2 hlt) hn'
    obtain ⟨t', neu, e2, k2, hn, hc, _⟩ := main M0 hM0
    dsimp only
    rw [e1, bind_ok, e2, bind_ok]
    refine ⟨t', neu, perf, rfl, k2, l1, ?_, hc, fun W' D' e w m hlt hm x => ?_⟩
    · rw [hn]
      unfold AllRate
      constructor
      · intro p W' D' e w hlt
        rw [hw] at e
        cases e
        exact (isRate_iff (hM0 w hlt)).1 (p w hlt)
      · intro p w hlt
        exact (isRate_iff (hM0 w hlt)).2 (p W D hw w hlt)
    · cases e
      obtain ⟨t'', neu', e2', _, _, _, hwl⟩ := main (fun w' => if w' = w then m else M0 w') (fun w' hw' => by
        by_cases hh : w' = w
        · subst hh; simp only [if_true]; exact hm
        · simp only [if_neg hh]; exact hM0 w' hw')
      rw [e2] at e2'
      cases e2'
      have := hwl w hlt x
      simpa only [if_true] using this

theorem scaleFirst_ok (sing : Bool) (k : Rat) {sa : List Rat} (h : 0 < sa.length) : scaleFirst sing k sa = .ok (if sing = true then sa.set 0 (sa.getD 0 0 * k) else sa) := by
  unfold scaleFirst
  by_cases hs : sing = true
  · rw [if_pos hs, if_pos hs, rd_getD (d := 0) h, bind_ok, wr_ok h]
  · rw [if_neg hs, if_neg hs]

/-- What the assembly leaves behind: before the adjustment of element `(0, 0)` there is a system with the right rows. -/
theorem assemble_ok {I : Input} (h : InputOk I) {lu : Lapack} (hlu : LapackOk lu) {d : Data} (hm : Made I.G I.F d) :
    ∃ S, ∃ hS : Solvers I lu S, ∃ d' sing s, assemble lu I.G I.dt I.F I.zc I.cq I.trans I.gravcap I.cpress I.wpress I.porevol d = .ok (d', sing) ∧ SameShape d d' ∧
      (sing = true ↔ AllRate I ∧ ∀ c (hc : c < I.G.nc), (hS c hc).2.L2 (T0 I c) = 0) ∧ SysOk d.J s ∧ RowsOk I lu S hS (fun x r => Res d.J s (x, r)) ∧
      d'.sys.b = s.b ∧ d'.sys.sa = (if sing = true then s.sa.set 0 (s.sa.getD 0 0 * 2) else s.sa) ∧ ElmAt d.J 0 0 0 := by
  obtain ⟨S, hS⟩ := exists_solvers h hlu
  obtain ⟨Wc, hP, hF, hd⟩ := hm.ok h.valid h.nonempty
  obtain ⟨sa, e1, l1, z1⟩ := vectorZero_ok (n := d.J.nnz) (v := d.sys.sa) (by rw [hd.sys.1])
  obtain ⟨b, e2, l2, z2⟩ := vectorZero_ok (n := d.J.m) (v := d.sys.b) (by rw [hd.sys.2])
  obtain ⟨face, e3, l3, hf⟩ := compFlux_ok h hd.face
  have hJ := hd.fits h.valid
  have hk0 : SysOk d.J { sa := sa, b := b } := ⟨by rw [← hd.sys.1]; exact l1, by rw [← hd.sys.2]; exact l2⟩
  have hb0 : ∀ r, b.getD r 0 = 0 := by
    intro r
    by_cases hr : r < d.J.m
    · exact z2 r hr
    · rw [List.getD_eq_getElem?_getD, List.getElem?_eq_none (by rw [l2, hd.sys.2]; omega)]; rfl
  have hsa0 : ∀ r, sa.getD r 0 = 0 := by
    intro r
    by_cases hr : r < d.J.nnz
    · exact z1 r hr
    · rw [List.getD_eq_getElem?_getD, List.getElem?_eq_none (by rw [l1, hd.sys.1]; omega)]; rfl
  have hres0 : ∀ xr : XR, Res d.J { sa := sa, b := b } xr = 0 := by
    intro xr
    unfold Res rowDot
    dsimp only
    rw [hb0, Finset.sum_eq_zero (fun p _ => by rw [hsa0]; ring)]
    ring
  obtain ⟨t1, inc, e4, k4, hinc, r4⟩ := cells_ok h hS hf hJ hk0 hb0 (V := fun c x => if hc : c < I.G.nc then (hS c hc).2.row x else 0) (fun c hc x => by simp only [dif_pos hc])
  obtain ⟨t2, neu, perf, e5, k5, l5, hneu, rc5, rw5⟩ := wellsPart_ok h hS hP hF hd k4
  obtain ⟨t3, e6, k6, r6⟩ := srcPart_ok h hJ.nc k5
  have hel : ElmAt d.J 0 0 0 := hd.pat.first_elm h.valid h.nonempty (by
    intro W' hW'
    obtain ⟨W, e, rfl⟩ := Option.map_eq_some_iff.1 hW'
    exact shutW_ok (hP W e))
  have hlen : 0 < t3.sa.length := by
    have := hJ.mat.pos.lt_total hel.1 hel.2.2.2.1
    rw [hJ.mat.nnz] at this
    rw [k6.1]; omega
  have hrun : assemble lu I.G I.dt I.F I.zc I.cq I.trans I.gravcap I.cpress I.wpress I.porevol d =
      .ok ({ d with sys := { t3 with sa := if (neu && inc) = true then t3.sa.set 0 (t3.sa.getD 0 0 * 2) else t3.sa }, incomp := inc, face := face, perf := perf }, neu && inc) := by
    unfold assemble
    rw [e1, bind_ok, e2, bind_ok, e3, bind_ok, e4, bind_ok, e5, bind_ok, e6, bind_ok, scaleFirst_ok _ _ hlen, bind_ok]
  refine ⟨S, hS, _, _, t3, hrun, ⟨rfl, ?_, ?_, l3, l5, rfl⟩, ?_, k6, ⟨fun c hc x => ?_, fun W D hw w m hlt hmode x => ?_⟩, rfl, rfl, hel⟩
  · dsimp only
    split
    · rw [List.length_set, k6.1, hd.sys.1]
    · rw [k6.1, hd.sys.1]
  · exact k6.2.trans hd.sys.2.symm
  · rw [Bool.and_eq_true, hneu, hinc]
  · have ec := rc5 c hc x
    rw [r6]
    dsimp only
    rw [if_pos hc, ec, r4, hres0]
    dsimp only
    rw [if_pos hc, dif_pos hc, T_add_smul, T_add_smul, T_sub_smul]
    unfold Solver.row
    ring
  · have ew := rw5 W D hw w m hlt hmode x
    rw [r6]
    dsimp only
    rw [if_neg (by omega), ew, r4, hres0]
    dsimp only
    rw [if_neg (by omega)]
    ring

theorem Solver.sum_unique {np : Nat} {Ac dAc : List Rat} {c : Nat} {s : Block → Block} (h : Solver np Ac dAc c s) {b u : Block} (hu : ∀ i, i < np → mul Ac np c u i = b i) :
    ∑ i ∈ Finset.range np, u i = h.L b :=
  Finset.sum_congr rfl fun _ hj => h.unique hu (Finset.mem_range.1 hj)

theorem stiff_iff {I : Input} {lu : Lapack} {S : Nat → Block → Block} (hS : Solvers I lu S) : (∀ c (hc : c < I.G.nc), (hS c hc).2.L2 (T0 I c) = 0) ↔ Stiff I := by
  constructor
  · intro h c hc u v hu hv
    have hs := (hS c hc).2
    rw [hs.sum_unique hv]
    have := h c hc
    rw [hs.L2_eq] at this
    rw [← this]
    exact hs.L_congr fun i _ => mul_congr (fun j hj => hs.unique hu hj) i
  · intro h c hc
    have hs := (hS c hc).2
    exact h c hc (S c (T0 I c)) (S c (fun i => mul I.cq.dAc I.cq.np c (S c (T0 I c)) i)) (fun i hi => hs.sol _ i hi) (fun i hi => hs.sol _ i hi)

/-- Rows of the right form are an assembled system. -/
theorem assembled_of {I : Input} {lu : Lapack} {S : Nat → Block → Block} {hS : Solvers I lu S} (hnc : 0 < I.G.nc) {h : Data} {s : Sys} {J : Csr} (eJ : h.J = J) (hA : MatOk J) (hk : SysOk J s)
    (hel : ElmAt J 0 0 0) {R : (Nat → Rat) → Nat → Rat} (hR : RowsOk I lu S hS R) {extra slope : Nat → Rat} {sing : Bool} (hb : h.sys.b = s.b)
    (hsa : h.sys.sa = if sing = true then s.sa.set 0 (s.sa.getD 0 0 * 2) else s.sa)
    (hcell : ∀ c x, c < I.G.nc → Res J s (x, c) = R x c + extra c - slope c * x c) (hwell : ∀ r x, I.G.nc ≤ r → Res J s (x, r) = R x r) : Assembled I extra slope h sing := by
  have hzero : ∀ r, rowDot J s.sa (fun _ => 0) r = 0 := fun r => by unfold rowDot; exact Finset.sum_eq_zero fun p _ => by ring
  have hF : ∀ r, res h r = Res J s (fun _ => 0, r) := fun r => by unfold res Res; dsimp only; rw [hzero, hb, sub_zero]
  have hJx : ∀ x r, jac h x r = Res J s (fun _ => 0, r) - Res J s (x, r) + if sing = true ∧ r = 0 then s.sa.getD 0 0 * x 0 else 0 := by
    intro x r
    unfold jac Res
    dsimp only
    rw [hzero, eJ, hsa]
    by_cases hs : sing = true
    · rw [if_pos hs, show s.sa.getD 0 0 * 2 = s.sa.getD 0 0 + s.sa.getD 0 0 by ring, rowDot_set hA hk.1 hel]
      simp only [hs, true_and]
      ring
    · rw [if_neg hs, if_neg (fun hh => hs hh.1)]
      ring
  have hz : ∀ i c, I.G.netOutflow (faceComp I (fun _ => 0) 0 i) c = 0 := by
    intro i c
    unfold GridTopo.netOutflow
    refine Finset.sum_eq_zero fun f _ => ?_
    have : faceComp I (fun _ => 0) 0 i f = 0 := by
      unfold faceComp mul faceVel
      split
      · exact Finset.sum_eq_zero fun j _ => by ring
      · rfl
    rw [this]
    simp
  have hw0 : ∀ i c, wellComp I (fun _ => 0) 0 i c = 0 := by
    intro i c
    unfold wellComp
    cases hw : I.F.wells with
    | none => rfl
    | some WD =>
      dsimp only
      refine Finset.sum_eq_zero fun w _ => Finset.sum_eq_zero fun k _ => ?_
      split
      · unfold perfComp mul perfVel
        exact Finset.sum_eq_zero fun j _ => by ring
      · rfl
  have hlen : 0 < s.sa.length := by
    have := hA.pos.lt_total hel.1 hel.2.2.2.1
    rw [hA.nnz] at this
    rw [hk.1]; omega
  refine ⟨fun c hc => ?_, fun c u x hc => ?_, fun c u hc hu => ?_, ⟨s.sa.getD 0 0, ?_, fun c u x du hc hu hdu => ?_⟩, fun W D hw w m hlt hm => ?_, fun W D hw w m hlt hm x => ?_⟩
  · exact ⟨S c _, fun i hi => (hS c hc).2.sol (fun i => I.porevol.getD c 0 * ent I.zc I.cq.np c i - I.dt * I.G.netOutflow (faceComp I (given I) 1 i) c + I.dt * wellComp I (given I) 1 i c) i hi⟩
  · refine ⟨S c (fun i => -(I.dt * I.G.netOutflow (faceComp I x 0 i) c) + I.dt * wellComp I x 0 i c - mul I.cq.dAc I.cq.np c u i * x c), fun i hi => ?_⟩
    rw [(hS c hc).2.sol _ i hi]
    ring
  · have hs := (hS c hc).2
    rw [hF, hcell c _ hc, hR.cell c hc, hs.sum_unique hu]
    have : hs.L (fun i => I.dt * I.G.netOutflow (faceComp I (fun _ => 0) 0 i) c - I.dt * wellComp I (fun _ => 0) 0 i c) = 0 := by
      have e : (fun i => I.dt * I.G.netOutflow (faceComp I (fun _ => 0) 0 i) c - I.dt * wellComp I (fun _ => 0) 0 i c) = (0 : Nat → Rat) := by
        funext i; rw [hz, hw0]; simp
      rw [e, LinearMap.map_zero]
    rw [this]
    unfold T0
    ring
  · rw [hsa]
    by_cases hsg : sing = true
    · rw [if_pos hsg, if_pos hsg, getD_set_list hlen, if_pos rfl]; ring
    · rw [if_neg hsg, if_neg hsg]
  · have hs := (hS c hc).2
    rw [hJx, hcell c _ hc, hcell c _ hc, hR.cell c hc, hR.cell c hc]
    have e0 : (fun i => I.dt * I.G.netOutflow (faceComp I (fun _ => 0) 0 i) c - I.dt * wellComp I (fun _ => 0) 0 i c) = (0 : Nat → Rat) := by
      funext i; rw [hz, hw0]; simp
    have hdu' : ∑ i ∈ Finset.range I.cq.np, du i = hs.L (fun i => -(I.dt * I.G.netOutflow (faceComp I x 0 i) c) + I.dt * wellComp I x 0 i c - mul I.cq.dAc I.cq.np c u i * x c) :=
      hs.sum_unique (fun i hi => by have := hdu i hi; linarith)
    have hL2 : hs.L2 (fun i => T0 I c i + I.dt * wellComp I (given I) 1 i c) = hs.L (fun i => mul I.cq.dAc I.cq.np c u i) := by
      rw [hs.L2_eq]
      exact hs.L_congr fun i _ => mul_congr (fun j hj => (hs.unique (b := fun i => T0 I c i + I.dt * wellComp I (given I) 1 i c) hu hj).symm) i
    have hsplit : (fun i => -(I.dt * I.G.netOutflow (faceComp I x 0 i) c) + I.dt * wellComp I x 0 i c - mul I.cq.dAc I.cq.np c u i * x c) =
        (-1 : Rat) • (fun i => I.dt * I.G.netOutflow (faceComp I x 0 i) c - I.dt * wellComp I x 0 i c) + (-(x c)) • (fun i => mul I.cq.dAc I.cq.np c u i) := by
      funext i
      simp only [Pi.add_apply, Pi.smul_apply, smul_eq_mul]
      ring
    rw [hdu', hsplit, LinearMap.map_add, LinearMap.map_smul, LinearMap.map_smul, smul_eq_mul, smul_eq_mul, hL2, e0, LinearMap.map_zero]
    ring
  · have h0 : wellJac I W D w (fun _ => 0) m = 0 := by
      have hv : ∀ k p, perfVel I W D (fun _ => 0) 0 w k p = 0 := fun k p => by unfold perfVel; ring
      cases m with
      | shut => simp [wellJac]
      | bhp p => simp [wellJac]
      | resv d q => simp [wellJac, perfSum, hv]
      | surf d q => simp [wellJac, perfSum, perfComp, mul, hv]
    rw [hF, hwell _ _ (by omega), hR.well W D hw w m hlt hm, h0, sub_zero]
  · rw [hJx, if_neg (by omega), hwell _ _ (by omega), hwell _ _ (by omega), hR.well W D hw w m hlt hm, hR.well W D hw w m hlt hm]
    have h0 : wellJac I W D w (fun _ => 0) m = 0 := by
      have hv : ∀ k p, perfVel I W D (fun _ => 0) 0 w k p = 0 := fun k p => by unfold perfVel; ring
      cases m with
      | shut => simp [wellJac]
      | bhp p => simp [wellJac]
      | resv d q => simp [wellJac, perfSum, hv]
      | surf d q => simp [wellJac, perfSum, perfComp, mul, hv]
    rw [h0]
    ring

end Opm.CfsTpfa
