import Verif.Proofs.CfsMain
/-!
# Compressible flow: rock compressibility, fluxes and face pressures
-/

namespace Opm.CfsTpfa
open Opm.SparseSys
open _root_.Opm.IfsTpfa (numPerf getD_of_getElem? index_ok Sys addSa addB XR Res MatOk ElmAt HasElm SysOk addSa_res addB_res rowDot Pattern IsPerf vectorZero_ok rowDot_set)

theorem set_twice (l : List Rat) (v w : Rat) : (l.set 0 v).set 0 w = l.set 0 w := by cases l <;> rfl

theorem set_self (l : List Rat) (h : 0 < l.length) : l.set 0 (l.getD 0 0) = l := by
  cases l with
  | nil => cases h
  | cons a l => rfl

theorem comprock_ok {I : Input} (h : InputOk I) {lu : Lapack} (hlu : LapackOk lu) {d : Data} (hm : Made I.G I.F d) {pv rc : List Rat} (hpv : I.G.nc ≤ pv.length) (hrc : I.G.nc ≤ rc.length) :
    ∃ d' sing, comprockAssemble lu I.G I.dt I.F I.zc I.cq I.trans I.gravcap I.cpress I.wpress pv I.porevol rc d = .ok (d', sing) ∧ SameShape d d' ∧
      (sing = true ↔ AllRate I ∧ Stiff I ∧ ∀ c, c < I.G.nc → pv.getD c 0 = I.porevol.getD c 0 ∧ rc.getD c 0 = 0) ∧
      Assembled I (fun c => pv.getD c 0 - I.porevol.getD c 0) (fun c => pv.getD c 0 * rc.getD c 0) d' sing := by
  obtain ⟨S, hS, d1, sing, s, e, hsh, hsing, hk, hR, hb, hsa, hel⟩ := assemble_ok h hlu hm
  obtain ⟨Wc, hP, hF, hd⟩ := hm.ok h.valid h.nonempty
  have hJ := hd.fits h.valid
  have hpo := h.porevol
  have hlen : 0 < s.sa.length := by
    have := hJ.mat.pos.lt_total hel.1 hel.2.2.2.1
    rw [hJ.mat.nnz] at this
    rw [hk.1]; omega
  have hl1 : 0 < d1.sys.sa.length := by
    rw [hsa]; split
    · simpa using hlen
    · exact hlen
  unfold comprockAssemble
  rw [e, bind_ok]
  dsimp only
  rw [scaleFirst_ok _ _ hl1, bind_ok]
  have eback : (if sing = true then d1.sys.sa.set 0 (d1.sys.sa.getD 0 0 * (1 / 2)) else d1.sys.sa) = s.sa := by
    by_cases hs : sing = true
    · rw [if_pos hs, hsa, if_pos hs, set_twice, getD_set_list hlen, if_pos rfl, show s.sa.getD 0 0 * 2 * (1 / 2) = s.sa.getD 0 0 by ring]
      exact set_self _ hlen
    · rw [if_neg hs, hsa, if_neg hs]
  rw [eback, hb, hsh.J]
  obtain ⟨t, et, k, hinc, hr⟩ := loop_inv (n := I.G.nc) (s := (({ sa := s.sa, b := s.b } : Sys), true)) (f := fun c (t : Sys × Bool) => do
    let j ← elmIndex c c d.J.ia d.J.ja
    let pv ← rd pv c
    let pv0 ← rd I.porevol c
    let rc ← rd rc c
    let s ← addSa j (pv * rc) t.1
    let s ← addB c (pv - pv0) s
    .ok (s, t.2 && decide (pv - pv0 = 0 ∧ rc = 0)))
    (fun n t => SysOk d.J t.1 ∧ (t.2 = true ↔ ∀ c, c < n → pv.getD c 0 = I.porevol.getD c 0 ∧ rc.getD c 0 = 0) ∧
      ∀ xr : XR, Res d.J t.1 xr = Res d.J s xr + if xr.2 < n then pv.getD xr.2 0 - I.porevol.getD xr.2 0 - pv.getD xr.2 0 * rc.getD xr.2 0 * xr.1 xr.2 else 0)
    ⟨hk, by simp, by simp⟩
    (by
      rintro c t hc ⟨k, hinc, hr⟩
      have hcm : c < d.J.m := by have := hJ.nc; omega
      obtain ⟨j, hj⟩ := hJ.diag c hcm
      obtain ⟨t1, e1, k1, _, r1⟩ := addSa_res hJ.mat k hj (pv.getD c 0 * rc.getD c 0)
      obtain ⟨t2, e2, k2, _, r2⟩ := addB_res k1 hcm (pv.getD c 0 - I.porevol.getD c 0)
      rw [hj.2.1, bind_ok, rd_getD (d := 0) (by omega), bind_ok, rd_getD (d := 0) (by omega), bind_ok, rd_getD (d := 0) (by omega), bind_ok, e1, bind_ok, e2, bind_ok]
      refine ⟨_, rfl, k2, ?_, fun xr => ?_⟩
      · rw [Bool.and_eq_true, hinc, decide_eq_true_iff, sub_eq_zero]
        constructor
        · rintro ⟨p1, p2⟩ c' hc'
          rcases Nat.lt_or_ge c' c with hl | hl
          · exact p1 c' hl
          · obtain rfl : c' = c := by omega
            exact p2
        · intro p
          exact ⟨fun c' hl => p c' (by omega), p c (by omega)⟩
      · dsimp only
        rw [r2, r1, hr]
        by_cases hx : xr.2 = c
        · rw [if_pos hx, if_pos hx, hx, if_neg (Nat.lt_irrefl _), if_pos (Nat.lt_succ_self _)]
          ring
        · rw [if_neg hx, if_neg hx]
          have : xr.2 < c ↔ xr.2 < c + 1 := by omega
          simp only [this, add_zero])
  rw [et, bind_ok]
  have hl2 : 0 < t.1.sa.length := by rw [k.1, ← hk.1]; exact hlen
  rw [scaleFirst_ok _ _ hl2, bind_ok]
  refine ⟨_, _, rfl, ⟨rfl, ?_, ?_, hsh.face, hsh.perf, hsh.scratch⟩, ?_, ?_⟩
  · dsimp only
    split
    · rw [List.length_set, k.1, hd.sys.1]
    · rw [k.1, hd.sys.1]
  · exact k.2.trans hd.sys.2.symm
  · rw [Bool.and_eq_true, hinc, hsing, stiff_iff hS]
    tauto
  · refine assembled_of (hS := hS) h.nonempty (s := t.1) (J := d.J) ?_ hJ.mat k hel hR ?_ ?_ (fun c x hc => ?_) (fun r x hge => ?_)
    · rfl
    · rfl
    · rfl
    · rw [hr]
      dsimp only
      rw [if_pos hc]
      ring
    · rw [hr]
      dsimp only
      rw [if_neg (by omega), add_zero]

/-! ## Fluxes -/

/-- Total mobility of a face. -/
def totMob (mob : List Rat) (np f : Nat) : Rat := ∑ p ∈ Finset.range np, ent mob np f p

theorem computeFlux_ok {I : Input} (h : InputOk I) {fflux : List Rat} (hl : I.G.nf ≤ fflux.length) (hmob : ∀ f, f < I.G.nf → ¬ Int2 I.G f → totMob I.cq.phasemobf I.cq.np f ≠ 0) :
    ∃ q, computeFlux I.G I.cq.np I.trans I.cq.phasemobf I.gravcap I.cpress fflux = .ok q ∧ q.length = fflux.length ∧
      ∀ f, f < I.G.nf → q.getD f 0 = if Int2 I.G f then ∑ p ∈ Finset.range I.cq.np, faceVel I (given I) 1 f p else 0 := by
  unfold computeFlux
  refine loop_inv (n := I.G.nf) (s := fflux) (fun n t => t.length = fflux.length ∧ ∀ f, f < n → t.getD f 0 = if Int2 I.G f then ∑ p ∈ Finset.range I.cq.np, faceVel I (given I) 1 f p else 0)
    ⟨rfl, fun f hf => absurd hf (by omega)⟩ ?_
  rintro f t hf ⟨hlen, ht⟩
  obtain ⟨a, b, hs⟩ := h.valid.sides hf
  obtain ⟨ra, rb⟩ := h.valid.side_range hs
  have hc := h.cpress
  have htr := h.trans
  rw [rd_of_getElem? hs.1, bind_ok, rd_of_getElem? hs.2, bind_ok, blk hf h.mob, bind_ok, blk hf h.gravcap, bind_ok]
  dsimp only
  have hI : Int2 I.G f ↔ 0 ≤ a ∧ 0 ≤ b := by unfold Int2; rw [getD_of_getElem? hs.1, getD_of_getElem? hs.2]
  by_cases hi : 0 ≤ a ∧ 0 ≤ b
  · have e1 : side1 I.G f = a.toNat := by unfold side1; rw [getD_of_getElem? hs.1]
    have e2 : side2 I.G f = b.toNat := by unfold side2; rw [getD_of_getElem? hs.2]
    have g1 : I.cpress.getD a.toNat 0 = given I (side1 I.G f) := by unfold given; rw [e1, if_pos (by omega)]
    have g2 : I.cpress.getD b.toNat 0 = given I (side2 I.G f) := by unfold given; rw [e2, if_pos (by omega)]
    rw [if_pos hi, rd_getD (d := 0) (by omega), bind_ok, rd_getD (d := 0) (by omega), bind_ok, bind_ok, rd_getD (d := 0) (by omega), bind_ok, wr_ok (by omega)]
    refine ⟨_, rfl, by simp [hlen], fun j hj => ?_⟩
    rw [getD_set_list (by omega)]
    by_cases hjf : j = f
    · subst hjf
      rw [if_pos rfl, if_pos (hI.2 hi), g1, g2, sumN_eq, sumN_eq, Finset.sum_mul, ← Finset.sum_add_distrib, Finset.mul_sum]
      refine Finset.sum_congr rfl fun p _ => ?_
      unfold faceVel ent
      ring
    · rw [if_neg hjf]
      exact ht j (by omega)
  · have hne : sumN I.cq.np (fun j => I.cq.phasemobf.getD (f * I.cq.np + j) 0) ≠ 0 := by
      rw [sumN_eq]; exact hmob f hf (fun hh => hi (hI.1 hh))
    rw [if_neg hi, fdiv_ok hne, bind_ok, rd_getD (d := 0) (by omega), bind_ok, wr_ok (by omega)]
    refine ⟨_, rfl, by simp [hlen], fun j hj => ?_⟩
    rw [getD_set_list (by omega)]
    by_cases hjf : j = f
    · subst hjf
      rw [if_pos rfl, if_neg (fun hh => hi (hI.1 hh)), mul_div_cancel₀ _ hne]
      ring
    · rw [if_neg hjf]
      exact ht j (by omega)

/-- Mobilities a perforation flux is computed with. -/
def upMob (I : Input) (W : Wells.W) (D : Completions) (pmobc : List Rat) (w k : Nat) : Rat :=
  if 0 < given I (I.G.nc + w) + D.wdp.getD k 0 - given I (perfCell W k) then totMob D.phasemob I.cq.np k else totMob pmobc I.cq.np (perfCell W k)

theorem computeWflux_ok {I : Input} (h : InputOk I) {W : Wells.W} {D : Completions} (hW : WellsOk I W D) {pmobc wflux : List Rat} (hc : I.G.nc * I.cq.np ≤ pmobc.length)
    (hl : numPerf W ≤ wflux.length) :
    ∃ q, computeWflux I.cq.np W D pmobc I.cpress I.wpress wflux = .ok q ∧ q.length = wflux.length ∧
      ∀ w k, w < W.nw → W.connpos.getD w 0 ≤ k → k < W.connpos.getD (w + 1) 0 →
        q.getD k 0 = W.wi.getD k 0 * upMob I W D pmobc w k * (given I (I.G.nc + w) + D.wdp.getD k 0 - given I (perfCell W k)) := by
  have hpr := hW.press
  have h1 := hW.wdp
  have h2 := hW.wi
  have h5 := h.cpress
  unfold computeWflux
  obtain ⟨t, e, l, ht⟩ := rowLoopPre_inv hW.pos (s := wflux) (pre := fun w => rd I.wpress w) (f := fun _ pw i wflux => do
    let c ← rd W.cells i
    let c ← IfsTpfa.index c
    let d ← rd D.wdp i
    let p ← rd I.cpress c
    let dp := pw + d - p
    let mob ← if 0 < dp then block D.phasemob (i * I.cq.np) I.cq.np else block pmobc (c * I.cq.np) I.cq.np
    let wi ← rd W.wi i
    wr wflux i (wi * sumN I.cq.np mob * dp)) (fun w => I.wpress.getD w 0) (fun w hw => rd_getD (by omega))
    (fun _ i t => t.length = wflux.length ∧ ∀ w k, w < W.nw → W.connpos.getD w 0 ≤ k → k < W.connpos.getD (w + 1) 0 → k < i →
      t.getD k 0 = W.wi.getD k 0 * upMob I W D pmobc w k * (given I (I.G.nc + w) + D.wdp.getD k 0 - given I (perfCell W k)))
    ⟨rfl, fun w k _ _ _ h => absurd h (by omega)⟩
    (by
      rintro w k t hw g1 g2 ⟨hlen, ht⟩
      have hk : k < numPerf W := hW.pos.lt_total hw g2
      obtain ⟨hcc, hlt⟩ := perfCell_ok hW hk
      have gc : given I (perfCell W k) = I.cpress.getD (perfCell W k) 0 := by unfold given; rw [if_pos hlt]
      rw [rd_of_getElem? hcc, bind_ok, index_ok, bind_ok, rd_getD (d := 0) (by omega), bind_ok, rd_getD (d := 0) (by omega), bind_ok]
      dsimp only
      have fin : ∀ mob : Block, sumN I.cq.np mob = upMob I W D pmobc w k → ∃ t', (do
          let wi ← rd W.wi k
          wr t k (wi * sumN I.cq.np mob * (I.wpress.getD w 0 + D.wdp.getD k 0 - I.cpress.getD (perfCell W k) 0))) = .ok t' ∧ t'.length = wflux.length ∧
          ∀ w' k', w' < W.nw → W.connpos.getD w' 0 ≤ k' → k' < W.connpos.getD (w' + 1) 0 → k' < k + 1 →
            t'.getD k' 0 = W.wi.getD k' 0 * upMob I W D pmobc w' k' * (given I (I.G.nc + w') + D.wdp.getD k' 0 - given I (perfCell W k')) := by
        intro mob hmob
        rw [rd_getD (d := 0) (by omega), bind_ok, wr_ok (by omega)]
        refine ⟨_, rfl, by simp [hlen], fun w' k' hw' g1' g2' hlt' => ?_⟩
        rw [getD_set_list (by omega)]
        by_cases hkk : k' = k
        · subst hkk
          obtain rfl : w' = w := hW.pos.row_unique hw' hw g1' g2' g1 g2
          rw [if_pos rfl, hmob, given_well, gc]
        · rw [if_neg hkk]
          exact ht w' k' hw' g1' g2' (by omega)
      by_cases hdp : 0 < I.wpress.getD w 0 + D.wdp.getD k 0 - I.cpress.getD (perfCell W k) 0
      · rw [if_pos hdp, blk hk hW.mob, bind_ok]
        refine fin _ ?_
        unfold upMob
        rw [given_well, gc, if_pos hdp, sumN_eq]
        rfl
      · rw [if_neg hdp, blk hlt hc, bind_ok]
        refine fin _ ?_
        unfold upMob
        rw [given_well, gc, if_neg hdp, sumN_eq]
        rfl)
    (fun w t _ ht => ht)
  exact ⟨t, e, l, fun w k hw g1 g2 => ht w k hw g1 g2 (hW.pos.lt_total hw g2)⟩

theorem fpress_ok {G : GridTopo} (hv : G.Valid) (h0 : G.cellFacepos[0]? = some 0) {htrans cpress fp : List Rat} {d : Data} (ht : G.cellFacepos.getD G.nc 0 ≤ htrans.length)
    (hc : G.nc ≤ cpress.length) (hfp : fp.length = G.nf) (hsc : d.scratch.length = G.nf) (hne : ∀ f, f < G.nf → halfSum G (fun _ i => htrans.getD i 0) f ≠ 0) :
    ∃ q d', fpress G htrans cpress fp d = .ok (q, d') ∧ q.length = G.nf ∧
      (∀ f, f < G.nf → q.getD f 0 = halfSum G (fun c i => htrans.getD i 0 * cpress.getD c 0) f / halfSum G (fun _ i => htrans.getD i 0) f) ∧ SameShape d d' := by
  have hp := hv.rowPos h0
  unfold fpress
  obtain ⟨sc, e1, l1, z1⟩ := vectorZero_ok (n := G.nf) (v := d.scratch) (by omega)
  obtain ⟨fp0, e2, l2, z2⟩ := vectorZero_ok (n := G.nf) (v := fp) (by omega)
  rw [e1, bind_ok, e2, bind_ok]
  obtain ⟨r, e3, ⟨k1, k2⟩, hr⟩ := rowLoop_sum hp (s := (sc, fp0)) (f := fun c i (r : List Rat × List Rat) => do
    let f ← rd G.cellFaces i
    let t ← rd htrans i
    let p ← rd cpress c
    let sc ← addAt r.1 f t
    let fp ← addAt r.2 f (t * p)
    .ok (sc, fp)) (fun r => r.1.length = G.nf ∧ r.2.length = G.nf) (fun (r : List Rat × List Rat) (q : Bool × Nat) => if q.1 = true then r.1.getD q.2 0 else r.2.getD q.2 0)
    (fun c i (q : Bool × Nat) => if G.cellFaces.getD i 0 = q.2 then (if q.1 = true then htrans.getD i 0 else htrans.getD i 0 * cpress.getD c 0) else 0) ⟨l1.trans hsc, l2.trans hfp⟩
    (by
      rintro c i r hcl g1 g2 ⟨k1, k2⟩
      obtain ⟨f, hf, hlt⟩ := hv.face_at hcl g2
      have hit := hp.lt_total hcl g2
      rw [rd_of_getElem? hf, bind_ok, rd_getD (d := 0) (by omega), bind_ok, rd_getD (d := 0) (by omega), bind_ok, addAt_ok (by omega), bind_ok, addAt_ok (by omega), bind_ok]
      refine ⟨_, rfl, ⟨by simp [k1], by simp [k2]⟩, fun q => ?_⟩
      dsimp only
      rw [getD_addAt (by omega), getD_addAt (by omega), getD_of_getElem? hf]
      by_cases hq : q.2 = f
      · rw [if_pos hq, if_pos hq, if_pos hq.symm]
        split <;> rfl
      · simp only [if_neg hq, if_neg (fun hh : f = q.2 => hq hh.symm), add_zero])
  rw [e3, bind_ok]
  have h1 : ∀ f, f < G.nf → r.1.getD f 0 = halfSum G (fun _ i => htrans.getD i 0) f := by
    intro f hf
    have := hr (true, f)
    simp only [if_true] at this
    rw [this, z1 f hf, zero_add]
    rfl
  have h2 : ∀ f, f < G.nf → r.2.getD f 0 = halfSum G (fun c i => htrans.getD i 0 * cpress.getD c 0) f := by
    intro f hf
    have := hr (false, f)
    simp only [Bool.false_eq_true, if_false] at this
    rw [this, z2 f hf, zero_add]
    rfl
  obtain ⟨q, e4, k4, hlo, _⟩ := loop_inv (n := G.nf) (s := r.2) (f := fun f fp => do
    let v ← rd fp f
    let d ← rd r.1 f
    let q ← fdiv v d
    wr fp f q) (fun n t => t.length = G.nf ∧ (∀ f, f < n → t.getD f 0 = r.2.getD f 0 / r.1.getD f 0) ∧ ∀ f, n ≤ f → t.getD f 0 = r.2.getD f 0)
    ⟨k2, fun f hf => absurd hf (by omega), fun _ _ => rfl⟩
    (by
      rintro f t hf ⟨kl, hlo, hhi⟩
      have hd : r.1.getD f 0 ≠ 0 := by rw [h1 f hf]; exact hne f hf
      rw [rd_getD (d := 0) (by omega), bind_ok, rd_getD (d := 0) (by omega), bind_ok, fdiv_ok hd, bind_ok, wr_ok (by omega)]
      refine ⟨_, rfl, by simp [kl], fun j hj => ?_, fun j hj => ?_⟩
      · rw [getD_set_list (by omega)]
        by_cases hjf : j = f
        · subst hjf
          rw [if_pos rfl, hhi j (le_refl _)]
        · rw [if_neg hjf]
          exact hlo j (by omega)
      · rw [getD_set_list (by omega), if_neg (by omega)]
        exact hhi j (by omega))
  rw [e4, bind_ok]
  exact ⟨q, _, rfl, k4, fun f hf => by rw [hlo f hf, h1 f hf, h2 f hf], rfl, rfl, rfl, rfl, rfl, k1.trans hsc.symm⟩

end Opm.CfsTpfa
