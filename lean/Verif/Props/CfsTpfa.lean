import Verif.Proofs.CfsRock
import Verif.Proofs.GridValid
import Mathlib.LinearAlgebra.FiniteDimensional.Basic
import Mathlib.Tactic.IntervalCases
/-!
# Residual and Jacobian of compressible flow

Properties C117 to C120.
-/

namespace Opm.CfsTpfa
open Opm.SparseSys
open _root_.Opm.IfsTpfa (numPerf getD_of_getElem?)

/-- **Construction** succeeds for every valid mesh and all wells with perforations in the mesh. -/
theorem data_made (junk : Nat → Nat) (jd : Nat → Rat) (jc : Nat → Comp) {G : GridTopo} (hv : G.Valid) (hnc : 0 < G.nc) {W : Option Wells.W} (hW : ∀ V, W = some V → PerfsOk G V)
    {F : Forces} (hF : SameWells F W) : ∃ h, construct junk jd jc G W = .ok h ∧ Made G F h := by
  obtain ⟨h, e, _⟩ := construct_ok junk jd jc hv hnc hW
  exact ⟨h, e, junk, jd, jc, W, h, hW, hF, e, ⟨rfl, rfl, rfl, rfl, rfl, rfl⟩⟩

theorem made_trans {G : GridTopo} {F : Forces} {h h' : Data} (hm : Made G F h) (hs : SameShape h h') : Made G F h' := by
  obtain ⟨junk, jd, jc, W, h0, a, b, c, d⟩ := hm
  exact ⟨junk, jd, jc, W, h0, a, b, c, hs.J.trans d.J, hs.sa.trans d.sa, hs.b.trans d.b, hs.face.trans d.face, hs.perf.trans d.perf, hs.scratch.trans d.scratch⟩

/-- **Assembly.**  For every valid input and data made for the mesh and used any number of times, assembly succeeds.  It holds the volume that is not accounted for in every cell, what is to
vanish for every well, and the exact linearisation of both; the data can be used again. -/
theorem assembly {I : Input} (hI : InputOk I) {lu : Lapack} (hlu : LapackOk lu) {h : Data} (hm : Made I.G I.F h) :
    ∃ h' adj, assemble lu I.G I.dt I.F I.zc I.cq I.trans I.gravcap I.cpress I.wpress I.porevol h = .ok (h', adj) ∧ Made I.G I.F h' ∧ Assembled I (fun _ => 0) (fun _ => 0) h' adj := by
  obtain ⟨S, hS, d', sing, s, e, hsh, hsing, hk, hR, hb, hsa, hel⟩ := assemble_ok hI hlu hm
  obtain ⟨Wc, hP, hF, hd⟩ := hm.ok hI.valid hI.nonempty
  refine ⟨d', sing, e, made_trans hm hsh, assembled_of (hS := hS) hI.nonempty hsh.J (hd.fits hI.valid).mat hk hel hR hb hsa (fun c x _ => ?_) (fun _ _ _ => rfl)⟩
  ring

/-- **Adjustment.**  The system is adjusted exactly if all wells are controlled by rates and fluids do not change with pressure in a way that changes the volume in cells. -/
theorem adjusted_iff {I : Input} (hI : InputOk I) {lu : Lapack} (hlu : LapackOk lu) {h : Data} (hm : Made I.G I.F h) {h' : Data} {adj : Bool}
    (e : assemble lu I.G I.dt I.F I.zc I.cq I.trans I.gravcap I.cpress I.wpress I.porevol h = .ok (h', adj)) : adj = true ↔ AllRate I ∧ Stiff I := by
  obtain ⟨S, hS, d', sing, s, e', _, hsing, _⟩ := assemble_ok hI hlu hm
  rw [e] at e'
  cases e'
  rw [hsing, stiff_iff hS]

/-- **Rock compressibility.**  `porevol` of the input is the pore volume at the start of the step; with `pv` the present one and `rc` the rock compressibilities, the residual of a cell is the
present pore volume less what is in it, and the diagonal has the change of the pore volume. -/
theorem rock_assembly {I : Input} (hI : InputOk I) {lu : Lapack} (hlu : LapackOk lu) {h : Data} (hm : Made I.G I.F h) {pv rc : List Rat} (hpv : I.G.nc ≤ pv.length) (hrc : I.G.nc ≤ rc.length) :
    ∃ h' adj, comprockAssemble lu I.G I.dt I.F I.zc I.cq I.trans I.gravcap I.cpress I.wpress pv I.porevol rc h = .ok (h', adj) ∧ Made I.G I.F h' ∧
      Assembled I (fun c => pv.getD c 0 - I.porevol.getD c 0) (fun c => pv.getD c 0 * rc.getD c 0) h' adj ∧
      (adj = true ↔ AllRate I ∧ Stiff I ∧ ∀ c, c < I.G.nc → pv.getD c 0 = I.porevol.getD c 0 ∧ rc.getD c 0 = 0) := by
  obtain ⟨h', adj, e, hs, ha, hA⟩ := comprock_ok hI hlu hm hpv hrc
  exact ⟨h', adj, e, made_trans hm hs, hA, ha⟩

/-- **Linearisation is exact for fluxes.**  Component fluxes at pressures `y + x` are those at `y` plus the change in direction `x`. -/
theorem fluxes_affine (I : Input) (y x : Nat → Rat) (i f : Nat) : faceComp I (fun r => y r + x r) 1 i f = faceComp I y 1 i f + faceComp I x 0 i f ∧
    ∀ W D w k, perfComp I W D (fun r => y r + x r) 1 w i k = perfComp I W D y 1 w i k + perfComp I W D x 0 w i k := by
  refine ⟨?_, fun W D w k => ?_⟩
  · unfold faceComp
    split
    · unfold mul faceVel
      rw [← Finset.sum_add_distrib]
      exact Finset.sum_congr rfl fun p _ => by ring
    · ring
  · unfold perfComp mul perfVel
    rw [← Finset.sum_add_distrib]
    exact Finset.sum_congr rfl fun p _ => by ring

/-- **A Newton step fills the pores to first order.**  If the pressures are changed by a solution of the system that was not adjusted, the volume in each cell, with its first-order change, is
the pore volume with its first-order change, less explicit sources. -/
theorem newton_fills {I : Input} {extra slope : Nat → Rat} {h : Data} (hA : Assembled I extra slope h false) {x u du : Nat → Rat} {c : Nat} (hc : c < I.G.nc)
    (hx : jac h x c = -res h c) (hu : Holds I c u) (hdu : Changes I c u x du) :
    ∑ i ∈ Finset.range I.cq.np, (u i + du i) + I.dt * srcVol I c = I.porevol.getD c 0 + extra c + slope c * x c := by
  obtain ⟨e, _, hj⟩ := hA.cell_jac
  have h1 := hj c u x du hc hu hdu
  rw [hx, hA.cell_res c u hc hu] at h1
  rw [Finset.sum_add_distrib]
  simp only [Bool.false_eq_true, false_and, if_false, add_zero] at h1
  linarith

/-- **A Newton step meets the controls of wells.**  Bottom hole pressures are met by one step, and rates by the fluxes linearised as above, which for perforations is exact. -/
theorem newton_wells {I : Input} {extra slope : Nat → Rat} {h : Data} {adj : Bool} (hA : Assembled I extra slope h adj) {W : Wells.W} {D : Completions} (hW : I.F.wells = some (W, D))
    (hdt : I.dt ≠ 0) {w : Nat} (hw : w < W.nw) {x : Nat → Rat} (hx : jac h x (I.G.nc + w) = -res h (I.G.nc + w)) :
    (∀ p, HasMode I.cq.np W w (.bhp p) → wellTrans I W D w ≠ 0 → given I (I.G.nc + w) + x (I.G.nc + w) = p) ∧
    (∀ d q, HasMode I.cq.np W w (.resv d q) → perfSum W w (fun k => ∑ p ∈ Finset.range I.cq.np, d p * perfVel I W D (fun r => given I r + x r) 1 w k p) = q) ∧
    (∀ d q, HasMode I.cq.np W w (.surf d q) → perfSum W w (fun k => ∑ i ∈ Finset.range I.cq.np, d i * perfComp I W D (fun r => given I r + x r) 1 w i k) = q) := by
  refine ⟨fun p hm ht => ?_, fun d q hm => ?_, fun d q hm => ?_⟩
  · rw [hA.well_jac W D hW w _ hw hm, hA.well_res W D hW w _ hw hm] at hx
    dsimp only [wellJac, wellRes] at hx
    have : I.dt * (wellTrans I W D w * (given I (I.G.nc + w) + x (I.G.nc + w) - p)) = 0 := by linarith
    rcases mul_eq_zero.1 this with h0 | h0
    · exact absurd h0 hdt
    · rcases mul_eq_zero.1 h0 with h1 | h1
      · exact absurd h1 ht
      · linarith
  · rw [hA.well_jac W D hW w _ hw hm, hA.well_res W D hW w _ hw hm] at hx
    dsimp only [wellJac, wellRes] at hx
    have e : perfSum W w (fun k => ∑ p ∈ Finset.range I.cq.np, d p * perfVel I W D (fun r => given I r + x r) 1 w k p) =
        perfSum W w (fun k => ∑ p ∈ Finset.range I.cq.np, d p * perfVel I W D (given I) 1 w k p) + perfSum W w (fun k => ∑ p ∈ Finset.range I.cq.np, d p * perfVel I W D x 0 w k p) := by
      unfold perfSum
      rw [← Finset.sum_add_distrib]
      refine Finset.sum_congr rfl fun k _ => ?_
      rw [← Finset.sum_add_distrib]
      exact Finset.sum_congr rfl fun p _ => by unfold perfVel; ring
    rw [e]
    have : I.dt * (perfSum W w (fun k => ∑ p ∈ Finset.range I.cq.np, d p * perfVel I W D (given I) 1 w k p) + perfSum W w (fun k => ∑ p ∈ Finset.range I.cq.np, d p * perfVel I W D x 0 w k p) - q) = 0 := by
      linarith
    rcases mul_eq_zero.1 this with h0 | h0
    · exact absurd h0 hdt
    · linarith
  · rw [hA.well_jac W D hW w _ hw hm, hA.well_res W D hW w _ hw hm] at hx
    dsimp only [wellJac, wellRes] at hx
    have e : perfSum W w (fun k => ∑ i ∈ Finset.range I.cq.np, d i * perfComp I W D (fun r => given I r + x r) 1 w i k) =
        perfSum W w (fun k => ∑ i ∈ Finset.range I.cq.np, d i * perfComp I W D (given I) 1 w i k) + perfSum W w (fun k => ∑ i ∈ Finset.range I.cq.np, d i * perfComp I W D x 0 w i k) := by
      unfold perfSum
      rw [← Finset.sum_add_distrib]
      refine Finset.sum_congr rfl fun k _ => ?_
      rw [← Finset.sum_add_distrib]
      exact Finset.sum_congr rfl fun p _ => by rw [(fluxes_affine I (given I) x p 0).2]; ring
    rw [e]
    have : I.dt * (perfSum W w (fun k => ∑ i ∈ Finset.range I.cq.np, d i * perfComp I W D (given I) 1 w i k) +
        perfSum W w (fun k => ∑ i ∈ Finset.range I.cq.np, d i * perfComp I W D x 0 w i k) - q) = 0 := by
      linarith
    rcases mul_eq_zero.1 this with h0 | h0
    · exact absurd h0 hdt
    · linarith

/-! ## Fluxes and face pressures -/

/-- **Total fluxes** of interior faces are the sums of the phase fluxes the balances were assembled with; boundary faces have none.  This needs a total mobility other than zero on boundary faces. -/
theorem face_fluxes_partial {I : Input} (h : InputOk I) {fflux : List Rat} (hl : I.G.nf ≤ fflux.length)
    (hmob : ∀ f, f < I.G.nf → ¬ I.G.Interior f → ∑ p ∈ Finset.range I.cq.np, ent I.cq.phasemobf I.cq.np f p ≠ 0) (F : Forces) (pmobc : List Rat) :
    ∃ q, flux I.G F I.cq.np I.trans pmobc I.cq.phasemobf I.gravcap I.cpress none fflux none = .ok (q, none) ∧
      ∀ f, f < I.G.nf → (I.G.Interior f → q.getD f 0 = ∑ p ∈ Finset.range I.cq.np, faceVel I (given I) 1 f p) ∧ (¬ I.G.Interior f → q.getD f 0 = 0) := by
  have hint : ∀ f, f < I.G.nf → (Int2 I.G f ↔ I.G.Interior f) := by
    intro f hf
    obtain ⟨a, b, hs⟩ := h.valid.sides hf
    unfold Int2
    rw [getD_of_getElem? hs.1, getD_of_getElem? hs.2]
    constructor
    · rintro ⟨h1, h2⟩
      refine ⟨a.toNat, b.toNat, ?_⟩
      rw [Int.toNat_of_nonneg h1, Int.toNat_of_nonneg h2]
      exact hs
    · rintro ⟨a', b', hs'⟩
      obtain ⟨e1, e2⟩ := hs.unique hs'
      omega
  obtain ⟨q, e, _, hq⟩ := computeFlux_ok h hl (fun f hf hi => hmob f hf (fun hh => hi ((hint f hf).2 hh)))
  unfold flux
  rw [e, bind_ok]
  refine ⟨q, by cases F.wells <;> rfl, fun f hf => ⟨fun hi => ?_, fun hi => ?_⟩⟩
  · rw [hq f hf, if_pos ((hint f hf).2 hi)]
  · rw [hq f hf, if_neg (fun hh => hi ((hint f hf).1 hh))]

/-- **Division by zero.**  If no phase is mobile on a boundary face that is preceded by faces without trouble, the fluxes are not defined; here for a first face. -/
theorem immobile_boundary {I : Input} (h : InputOk I) {fflux : List Rat} (hnf : 0 < I.G.nf) (hb : ¬ I.G.Interior 0) (hmob : ∑ p ∈ Finset.range I.cq.np, ent I.cq.phasemobf I.cq.np 0 p = 0) :
    computeFlux I.G I.cq.np I.trans I.cq.phasemobf I.gravcap I.cpress fflux = .error .nonFinite := by
  unfold computeFlux
  have key : ∀ n, loop (n + 1) (fun f fflux => do
    let c1 ← rd I.G.faceCells (2 * f)
    let c2 ← rd I.G.faceCells (2 * f + 1)
    let mob ← block I.cq.phasemobf (f * I.cq.np) I.cq.np
    let gc ← block I.gravcap (f * I.cq.np) I.cq.np
    let t := sumN I.cq.np mob
    let g := sumN I.cq.np (fun p => mob p * gc p)
    let dp ← if 0 ≤ c1 ∧ 0 ≤ c2 then do
        let p1 ← rd I.cpress c1.toNat
        let p2 ← rd I.cpress c2.toNat
        .ok (p1 - p2)
      else fdiv (-g) t
    let tr ← rd I.trans f
    wr fflux f (tr * (t * dp + g))) fflux = .error .nonFinite := by
    intro n
    induction n with
    | zero =>
      obtain ⟨a, b, hs⟩ := h.valid.sides hnf
      rw [loop_succ]
      show (do let s ← (Except.ok fflux : M _); _) = _
      rw [bind_ok]
      rw [rd_of_getElem? hs.1, bind_ok, rd_of_getElem? hs.2, bind_ok, blk hnf h.mob, bind_ok, blk hnf h.gravcap, bind_ok]
      dsimp only
      have hi : ¬ (0 ≤ a ∧ 0 ≤ b) := by
        rintro ⟨h1, h2⟩
        refine hb ⟨a.toNat, b.toNat, ?_⟩
        rw [Int.toNat_of_nonneg h1, Int.toNat_of_nonneg h2]
        exact hs
      rw [if_neg hi]
      have hz : sumN I.cq.np (fun j => I.cq.phasemobf.getD (0 * I.cq.np + j) 0) = 0 := by rw [sumN_eq]; exact hmob
      unfold fdiv
      rw [if_pos hz]
      rfl
    | succ n ih => rw [loop_succ, ih]; rfl
  obtain ⟨n, hn⟩ : ∃ n, I.G.nf = n + 1 := ⟨I.G.nf - 1, by omega⟩
  rw [hn]
  exact key n

/-- **Both together.**  With wells the same fluxes are computed, and the rates of perforations from the same pressures. -/
theorem fluxes_and_rates {G : GridTopo} {F : Forces} {W : Wells.W} {D : Completions} (hF : F.wells = some (W, D)) {np : Nat} {trans pmobc pmobf gravcap cpress wp fflux wf q qw : List Rat}
    (h1 : flux G F np trans pmobc pmobf gravcap cpress none fflux none = .ok (q, none)) (h2 : computeWflux np W D pmobc cpress wp wf = .ok qw) :
    flux G F np trans pmobc pmobf gravcap cpress (some wp) fflux (some wf) = .ok (q, some qw) := by
  unfold flux at h1 ⊢
  cases e : computeFlux G np trans pmobf gravcap cpress fflux with
  | error x => rw [e] at h1; cases h1
  | ok y =>
    rw [e, bind_ok, hF] at h1
    cases h1
    rw [bind_ok, hF]
    dsimp only
    rw [h2]
    rfl

/-- **Perforation rates** that flow into the reservoir are the sums of the phase rates the balances were assembled with. -/
theorem perf_rates_partial {I : Input} (h : InputOk I) {W : Wells.W} {D : Completions} (hW : WellsOk I W D) {pmobc wflux : List Rat} (hc : I.G.nc * I.cq.np ≤ pmobc.length)
    (hl : numPerf W ≤ wflux.length) :
    ∃ q, computeWflux I.cq.np W D pmobc I.cpress I.wpress wflux = .ok q ∧
      ∀ w k, w < W.nw → W.connpos.getD w 0 ≤ k → k < W.connpos.getD (w + 1) 0 →
        (0 < given I (I.G.nc + w) + D.wdp.getD k 0 - given I (perfCell W k) → q.getD k 0 = ∑ p ∈ Finset.range I.cq.np, perfVel I W D (given I) 1 w k p) ∧
        (given I (I.G.nc + w) + D.wdp.getD k 0 - given I (perfCell W k) ≤ 0 →
          q.getD k 0 = W.wi.getD k 0 * (∑ p ∈ Finset.range I.cq.np, ent pmobc I.cq.np (perfCell W k) p) * (given I (I.G.nc + w) + D.wdp.getD k 0 - given I (perfCell W k))) := by
  obtain ⟨q, e, _, hq⟩ := computeWflux_ok h hW hc hl
  refine ⟨q, e, fun w k hw g1 g2 => ⟨fun hp => ?_, fun hp => ?_⟩⟩
  · rw [hq w k hw g1 g2]
    unfold upMob totMob
    rw [if_pos hp, Finset.mul_sum, Finset.sum_mul]
    exact Finset.sum_congr rfl fun p _ => by unfold perfVel; ring
  · rw [hq w k hw g1 g2]
    unfold upMob totMob
    rw [if_neg (not_lt.2 hp)]

/-- **Reported and balanced rates differ** for every perforation that takes fluid from the reservoir while its mobilities are not those of the cell, as those of injectors are: the rate reported
is then not the rate the balance of the cell was assembled with. -/
theorem crossflow_mismatch {I : Input} (h : InputOk I) {W : Wells.W} {D : Completions} (hW : WellsOk I W D) {pmobc wflux : List Rat} (hc : I.G.nc * I.cq.np ≤ pmobc.length)
    (hl : numPerf W ≤ wflux.length) {w k : Nat} (hw : w < W.nw) (g1 : W.connpos.getD w 0 ≤ k) (g2 : k < W.connpos.getD (w + 1) 0) (hwi : W.wi.getD k 0 ≠ 0)
    (hdp : given I (I.G.nc + w) + D.wdp.getD k 0 - given I (perfCell W k) < 0)
    (hm : ∑ p ∈ Finset.range I.cq.np, ent D.phasemob I.cq.np k p ≠ ∑ p ∈ Finset.range I.cq.np, ent pmobc I.cq.np (perfCell W k) p) :
    ∃ q, computeWflux I.cq.np W D pmobc I.cpress I.wpress wflux = .ok q ∧ q.getD k 0 ≠ ∑ p ∈ Finset.range I.cq.np, perfVel I W D (given I) 1 w k p := by
  obtain ⟨q, e, hq⟩ := perf_rates_partial h hW hc hl
  refine ⟨q, e, fun heq => hm ?_⟩
  rw [(hq w k hw g1 g2).2 (le_of_lt hdp)] at heq
  have : ∑ p ∈ Finset.range I.cq.np, perfVel I W D (given I) 1 w k p =
      W.wi.getD k 0 * (∑ p ∈ Finset.range I.cq.np, ent D.phasemob I.cq.np k p) * (given I (I.G.nc + w) + D.wdp.getD k 0 - given I (perfCell W k)) := by
    rw [Finset.mul_sum, Finset.sum_mul]
    exact Finset.sum_congr rfl fun p _ => by unfold perfVel; ring
  rw [this] at heq
  exact (mul_left_cancel₀ hwi (mul_right_cancel₀ (ne_of_lt hdp) heq)).symm

/-- **Face pressures** are averages of the pressures of the cells of the face, weighted with half-transmissibilities. -/
theorem face_pressures {G : GridTopo} (hv : G.Valid) (h0 : G.cellFacepos[0]? = some 0) {htrans cpress fp : List Rat} {d : Data} (ht : G.cellFacepos.getD G.nc 0 ≤ htrans.length)
    (hc : G.nc ≤ cpress.length) (hfp : fp.length = G.nf) (hsc : d.scratch.length = G.nf) (hne : ∀ f, f < G.nf → halfSum G (fun _ i => htrans.getD i 0) f ≠ 0) :
    ∃ q d', fpress G htrans cpress fp d = .ok (q, d') ∧
      ∀ f, f < G.nf → q.getD f 0 * halfSum G (fun _ i => htrans.getD i 0) f = halfSum G (fun c i => htrans.getD i 0 * cpress.getD c 0) f := by
  obtain ⟨q, d', e, _, hq, _⟩ := fpress_ok hv h0 ht hc hfp hsc hne
  exact ⟨q, d', e, fun f hf => by rw [hq f hf, div_mul_cancel₀ _ (hne f hf)]⟩

/-! ## Hypotheses can be met -/

/-- There are solvers for small systems as assumed. -/
theorem exists_lapack : ∃ lu, LapackOk lu := by
  classical
  have key : ∀ np A, Regular np A → ∀ b : Nat → Rat, ∃ u : Nat → Rat, ∀ i, i < np → ∑ j ∈ Finset.range np, A (j * np + i) * u j = b i := by
    intro np A hR b
    let f : (Fin np → Rat) →ₗ[Rat] (Fin np → Rat) :=
      { toFun := fun v i => ∑ j : Fin np, A (j.1 * np + i.1) * v j
        map_add' := fun v w => by funext i; simp only [Pi.add_apply, mul_add, Finset.sum_add_distrib]
        map_smul' := fun k v => by
          funext i
          simp only [Pi.smul_apply, smul_eq_mul, RingHom.id_apply, Finset.mul_sum]
          exact Finset.sum_congr rfl fun j _ => by ring }
    have hinj : Function.Injective f := by
      rw [← LinearMap.ker_eq_bot, LinearMap.ker_eq_bot']
      intro v hv
      funext j
      have := hR (fun k => if hk : k < np then v ⟨k, hk⟩ else 0) (fun i hi => by
        have := congrFun hv ⟨i, hi⟩
        rw [Finset.sum_range]
        simp only [Fin.is_lt, dif_pos]
        exact this) j.1 j.2
      simpa using this
    obtain ⟨v, hv⟩ := LinearMap.surjective_of_injective hinj (fun i : Fin np => b i.1)
    refine ⟨fun k => if hk : k < np then v ⟨k, hk⟩ else 0, fun i hi => ?_⟩
    have := congrFun hv ⟨i, hi⟩
    rw [Finset.sum_range]
    simp only [Fin.is_lt, dif_pos]
    exact this
  refine ⟨fun np A => if h : Regular np A then some (fun b => Classical.choose (key np A h b)) else none, fun np A hR => ?_⟩
  refine ⟨_, dif_pos hR, fun b i hi => Classical.choose_spec (key np A hR b) i hi⟩

namespace Demo

/-- Two cells side by side: faces 0 and 2 on the boundary, face 1 between the cells. -/
def G : GridTopo := { nc := 2, nf := 3, faceCells := [-1, 0, 0, 1, 1, -1], cellFacepos := [0, 2, 4], cellFaces := [0, 1, 1, 2] }

def shut : Wells.Controls := { num := 1, type := [.bhp], target := [9], distr := [1, 0], current := -1, cpty := 1 }
def bhp : Wells.Controls := { num := 1, type := [.bhp], target := [9], distr := [1, 0], current := 0, cpty := 1 }
def surf : Wells.Controls := { num := 1, type := [.surfaceRate], target := [3], distr := [1, 1], current := 0, cpty := 1 }

/-- An injector in the first cell with the given controls, a producer in the second at a surface rate. -/
def W (c : Wells.Controls) : Wells.W :=
  { nw := 2, np := 2, type := [.injector, .producer], depthRef := [0, 0], compFrac := [1, 0, 0, 1], connpos := [0, 1, 2], cells := [0, 1], wi := [1, 2], ctrls := [c, surf],
    name := [none, none], wellCpty := 2, perfCpty := 2 }

def D : Completions := { wdp := [0, 1], A := [1, 0, 0, 1, 2, 0, 1, 2], phasemob := [3, 0, 1, 1] }

/-- Two components; the second phase holds some of the first component. -/
def I (c : Wells.Controls) : Input :=
  { G := G, dt := 2, F := { wells := some (W c, D), src := some { nsrc := 1, cpty := 1, nphases := 2, cell := [1], flux := [5], saturation := [1, 0] } },
    zc := [1, 1, 2, 1], cq := { np := 2, Ac := [1, 0, 0, 1, 2, 0, 1, 2], dAc := [1, 0, 0, 0, 1, 0, 0, 1], Af := [1, 0, 0, 1, 1, 0, 0, 1, 2, 0, 1, 2], phasemobf := [1, 1, 1, 2, 1, 1] },
    trans := [1, 2, 1], gravcap := [0, 0, 1, 2, 0, 0], cpress := [10, 7], wpress := [12, 5], porevol := [20, 30] }

theorem valid : G.Valid := GridTopo.ValidB.valid (by decide +kernel)

theorem perfs (c : Wells.Controls) : PerfsOk G (W c) where
  pos := ⟨(by decide : (2:Nat) < 3), rfl, by
    intro i a b hi ha hb
    have : i = 0 ∨ i = 1 := by have : i < 2 := hi; omega
    rcases this with rfl | rfl <;> · cases ha; cases hb; decide⟩
  cell := by
    intro i hi
    have : i = 0 ∨ i = 1 := by have : i < 2 := hi; omega
    rcases this with rfl | rfl
    · exact ⟨0, rfl, by decide⟩
    · exact ⟨1, rfl, by decide⟩

theorem modes : HasMode 2 (W bhp) 0 (.bhp 9) ∧ HasMode 2 (W shut) 0 .shut ∧ ∀ c, HasMode 2 (W c) 1 (.surf (fun _ => 1) 3) := by
  refine ⟨⟨bhp, rfl, 0, rfl, rfl, rfl⟩, ⟨shut, rfl, (by decide : (-1 : Int) < 0)⟩, fun c => ⟨surf, rfl, 0, rfl, rfl, rfl, fun p hp => ?_⟩⟩
  have : p = 0 ∨ p = 1 := by omega
  rcases this with rfl | rfl <;> rfl

theorem regular (c : Wells.Controls) : ∀ k, k < 2 → Regular 2 (fun j => (I c).cq.Ac.getD (k * (2 * 2) + j) 0) := by
  intro k hk v hv j hj
  have h0 := hv 0 (by decide)
  have h1 := hv 1 (by decide)
  rw [Finset.sum_range_succ, Finset.sum_range_one] at h0 h1
  have : k = 0 ∨ k = 1 := by omega
  have hj' : j = 0 ∨ j = 1 := by omega
  rcases this with rfl | rfl
  · have e0 : (1 : Rat) * v 0 + 0 * v 1 = 0 := h0
    have e1 : (0 : Rat) * v 0 + 1 * v 1 = 0 := h1
    rcases hj' with rfl | rfl <;> linarith
  · have e0 : (2 : Rat) * v 0 + 1 * v 1 = 0 := h0
    have e1 : (0 : Rat) * v 0 + 2 * v 1 = 0 := h1
    rcases hj' with rfl | rfl <;> linarith

theorem input (c : Wells.Controls) (hc : ∃ m, HasMode 2 (W c) 0 m) : InputOk (I c) where
  valid := valid
  first := rfl
  nonempty := (by decide : (0 : Nat) < 2)
  zc := (by decide : 2 * 2 ≤ 4)
  Ac := (by decide : 2 * (2 * 2) ≤ 8)
  dAc := (by decide : 2 * (2 * 2) ≤ 8)
  Af := (by decide : 3 * (2 * 2) ≤ 12)
  mob := (by decide : 3 * 2 ≤ 6)
  gravcap := (by decide : 3 * 2 ≤ 6)
  trans := (by decide : 3 ≤ 3)
  cpress := (by decide : 2 ≤ 2)
  porevol := (by decide : 2 ≤ 2)
  regular := regular c
  wells := by
    intro V E e
    cases e
    exact { pos := (perfs c).pos, cell := (perfs c).cell, wi := (by decide : 2 ≤ 2), np := rfl, np3 := (by decide : 2 ≤ 3), wdp := (by decide : 2 ≤ 2), A := (by decide : 2 * (2 * 2) ≤ 8),
            mob := (by decide : 2 * 2 ≤ 4), press := (by decide : 2 ≤ 2),
            mode := fun w hw => by
              have : w = 0 ∨ w = 1 := by have : w < 2 := hw; omega
              rcases this with rfl | rfl
              · exact hc
              · exact ⟨_, modes.2.2 c⟩ }
  src := by
    intro s e
    cases e
    exact { np := rfl, flux := (by decide : 1 ≤ 1), cell := fun i hi => by
              obtain rfl : i = 0 := by have : i < 1 := hi; omega
              exact ⟨1, rfl, (by decide : (1 : Nat) < 2)⟩ }

theorem sameWells (c : Wells.Controls) : SameWells (I c).F (some (W c)) := by
  intro V E e
  cases e
  exact ⟨_, rfl, rfl, rfl, rfl⟩

/-- All hypotheses of the assembly theorems hold together. -/
theorem all_hypotheses : ∃ lu h, LapackOk lu ∧ InputOk (I bhp) ∧ Made (I bhp).G (I bhp).F h := by
  obtain ⟨lu, hlu⟩ := exists_lapack
  obtain ⟨h, _, hm⟩ := data_made (fun n => n) (fun _ => 7) (fun _ => default) (W := some (W bhp)) valid (by decide) (fun V e => by (cases e; exact perfs bhp)) (sameWells bhp)
  exact ⟨lu, h, hlu, input bhp ⟨_, modes.1⟩, hm⟩

/-- Systems with upper triangular matrices of size two. -/
def lu2 : Lapack := fun np A => if np = 2 ∧ A 1 = 0 ∧ A 0 ≠ 0 ∧ A 3 ≠ 0 then some (fun b i => if i = 1 then b 1 / A 3 else (b 0 - A 2 * (b 1 / A 3)) / A 0) else none

/-- The adjustment flag, the residual, and the Jacobian times a vector. -/
def run (I : Input) (x : List Rat) : Option (Bool × List Rat × List Rat) :=
  match construct (fun n => n) (fun _ => 7) (fun _ => default) I.G (I.F.wells.map (·.1)) with
  | .error _ => none
  | .ok h => match assemble lu2 I.G I.dt I.F I.zc I.cq I.trans I.gravcap I.cpress I.wpress I.porevol h with
    | .error _ => none
    | .ok (h', s) => some (s, h'.sys.b, (List.range h'.J.m).map (fun r => ((List.range h'.J.nnz).map (fun p =>
        if h'.J.ia.getD r 0 ≤ p ∧ p < h'.J.ia.getD (r + 1) 0 then h'.sys.sa.getD p 0 * x.getD (h'.J.ja.getD p 0) 0 else 0)).sum))

/-- The theorems apply to runs of the program that do something. -/
theorem runs : (run (I bhp) [1, 1, 1, 1]).isSome = true := by decide +kernel

/-- Fluids that do not change with pressure, the injector shut, the producer without perforations in the way: its target counts nothing. -/
def J : Input := { I shut with
  F := { wells := some ({ W shut with nw := 1, type := [.injector], connpos := [0, 1], ctrls := [shut] }, D), src := none }
  cq := { (I shut).cq with dAc := [0, 0, 0, 0, 0, 0, 0, 0] } }

/-- The fluxes of the example can be computed, and the producer draws from the reservoir with mobilities other than those of its cell. -/
example : (∀ f, f < (I bhp).G.nf → ¬ (I bhp).G.Interior f → ∑ p ∈ Finset.range (I bhp).cq.np, ent (I bhp).cq.phasemobf (I bhp).cq.np f p ≠ 0) ∧
    ∃ q, computeWflux (I bhp).cq.np (W bhp) D [1, 1, 5, 5] (I bhp).cpress (I bhp).wpress [0, 0] = .ok q ∧
      q.getD 1 0 ≠ ∑ p ∈ Finset.range (I bhp).cq.np, perfVel (I bhp) (W bhp) D (given (I bhp)) 1 1 1 p := by
  refine ⟨fun f hf _ => ?_, ?_⟩
  · have : f = 0 ∨ f = 1 ∨ f = 2 := by have : f < 3 := hf; omega
    rcases this with rfl | rfl | rfl <;> decide +kernel
  · exact crossflow_mismatch (input bhp ⟨_, modes.1⟩) ((input bhp ⟨_, modes.1⟩).wells _ _ rfl) (by decide) (by decide) (by decide) (by decide) (by decide) (by decide +kernel) (by decide +kernel)
      (by decide +kernel)

/-- Face pressures of the example. -/
example (d : Data) (hd : d.scratch.length = 3) : ∃ q d', fpress G [1, 2, 3, 1] [10, 7] [0, 0, 0] d = .ok (q, d') ∧ q.getD 1 0 * 5 = 41 := by
  have hs : halfSum G (fun _ i => [1, 2, 3, 1].getD i 0) 1 = 5 ∧ halfSum G (fun c i => [1, 2, 3, 1].getD i 0 * [10, 7].getD c 0) 1 = 41 := by decide +kernel
  obtain ⟨q, d', e, h⟩ := face_pressures valid rfl (htrans := [1, 2, 3, 1]) (cpress := [10, 7]) (fp := [0, 0, 0]) (d := d) (by decide) (by decide) rfl hd (fun f hf => by
    have : f = 0 ∨ f = 1 ∨ f = 2 := by have : f < 3 := hf; omega
    rcases this with rfl | rfl | rfl <;> decide +kernel)
  have := h 1 (by decide)
  rw [hs.1, hs.2] at this
  exact ⟨q, d', e, this⟩

end Demo

/-- **A shut well hides a singular system.**  The claim that the system is adjusted whenever nothing fixes the level of pressure is false: on this example fluids do not change with pressure and
the only well is shut, so raising the pressure of all cells by one changes nothing in any equation, but the system is not adjusted. -/
theorem shut_well_not_adjusted : ∃ F, Demo.run Demo.J [1, 1, 0] = some (false, F, [0, 0, 0]) := by
  have h : (match Demo.run Demo.J [1, 1, 0] with | some (s, _, r) => decide (s = false ∧ r = [0, 0, 0]) | none => false) = true := by decide +kernel
  match e : Demo.run Demo.J [1, 1, 0] with
  | none => rw [e] at h; cases h
  | some (s, F, r) =>
    rw [e] at h
    obtain ⟨h1, h2⟩ := of_decide_eq_true h
    exact ⟨F, by rw [h1, h2]⟩

end Opm.CfsTpfa
