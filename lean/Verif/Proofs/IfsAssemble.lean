import Verif.Proofs.IfsMatrix
import Verif.Proofs.Trans
/-! # What the assembly does to the residual: faces, gravity, wells -/

namespace Opm.IfsTpfa
open Opm Opm.SparseSys Graph

/-- The matrix has the elements the assembly needs. -/
structure Fits (G : GridTopo) (F : Option Forces) (A : Csr) : Prop where
  mat : MatOk A
  nc : G.nc ≤ A.m
  diag : ∀ i, i < A.m → HasElm A i i
  adj : ∀ f a b : Nat, G.Sides f a b → HasElm A a b ∧ HasElm A b a
  wells : ∀ F' W, F = some F' → F'.wells = some W → A.m = G.nc + W.nw ∧
    ∀ w i c, w < W.nw → IsPerf W w i c → HasElm A c (G.nc + w) ∧ HasElm A (G.nc + w) c

theorem gravTerm_ok {G : GridTopo} (hv : G.Valid) (h0 : G.cellFacepos[0]? = some 0) {gpress fgrav : List Rat} (hg : G.cellFacepos.getD G.nc 0 ≤ gpress.length)
    (hf : G.nf ≤ fgrav.length) :
    ∃ fg, gravTerm G gpress fgrav = .ok fg ∧ fg.length = fgrav.length ∧ (∀ f, f < G.nf → ¬ G.Interior f → fg.getD f 0 = 0) ∧
      ∀ f a b i1 i2 : Nat, G.Sides f a b → G.HalfFace a f i1 → G.HalfFace b f i2 → fg.getD f 0 = gpress.getD i1 0 - gpress.getD i2 0 := by
  obtain ⟨z, ez, lz, hz⟩ := vectorZero_ok hf
  have hp := hv.rowPos h0
  let u : Nat → Nat → Rat := fun c i =>
    if 0 ≤ G.faceCells.getD (2 * G.cellFaces.getD i 0) (-1) ∧ 0 ≤ G.faceCells.getD (2 * G.cellFaces.getD i 0 + 1) (-1) then
      (if G.faceCells.getD (2 * G.cellFaces.getD i 0) (-1) = (c : Int) then 1 else -1) * gpress.getD i 0 else 0
  suffices H : ∃ fg, gravTerm G gpress fgrav = .ok fg ∧ fg.length = fgrav.length ∧
      ∀ f : Nat, fg.getD f 0 = z.getD f 0 + ∑ c ∈ Finset.range G.nc, ∑ i ∈ Finset.Ico (G.cellFacepos.getD c 0) (G.cellFacepos.getD (c + 1) 0),
        (if f = G.cellFaces.getD i 0 then u c i else 0) by
    obtain ⟨fg, e, hl, hs⟩ := H
    refine ⟨fg, e, hl, ?_, ?_⟩
    · intro f hf hni
      rw [hs, hz f hf, zero_add]
      refine Finset.sum_eq_zero fun c _ => Finset.sum_eq_zero fun i _ => ?_
      split
      · rename_i e
        show (if _ then _ else _ : Rat) = 0
        rw [if_neg]
        rw [← e]
        rintro ⟨h1, h2⟩
        obtain ⟨a, b, hs⟩ := hv.sides hf
        rw [getD_of_getElem? hs.1] at h1
        rw [getD_of_getElem? hs.2] at h2
        exact hni ⟨a.toNat, b.toNat, by rw [Int.toNat_of_nonneg h1, Int.toNat_of_nonneg h2]; exact hs⟩
      · rfl
    · intro f a b i1 i2 hsd h1 h2
      have hsum := Trans.resistance_two hv (fun c i => 1 / u c i) hsd h1 h2
      unfold Trans.resistance at hsum
      simp only [one_div_one_div] at hsum
      rw [hs, hz f (hsd.lt hv), zero_add, hsum]
      obtain ⟨_, _, _, q1⟩ := (Trans.halfFace_iff hv).1 h1
      obtain ⟨_, _, _, q2⟩ := (Trans.halfFace_iff hv).1 h2
      have hne : (b : Int) ≠ a := by
        have := hv.distinct f _ _ hsd (by omega)
        omega
      simp only [u, getD_of_getElem? q1, getD_of_getElem? q2, getD_of_getElem? hsd.1, getD_of_getElem? hsd.2]
      simp only [Int.natCast_nonneg, and_self, if_true, if_neg (Ne.symm hne)]
      ring
  unfold gravTerm
  rw [ez, bind_ok]
  refine rowLoop_sum hp (fun t : List Rat => t.length = fgrav.length) (fun (t : List Rat) (f : Nat) => t.getD f 0) (fun c i f => if f = G.cellFaces.getD i 0 then u c i else 0) lz ?_
  intro c i t hc h1 h2 ht
  obtain ⟨f, hf', hlt⟩ := hv.face_at hc h2
  obtain ⟨a, b, hs⟩ := hv.sides hlt
  have hgl : i < gpress.length := by have := hp.lt_total hc h2; omega
  rw [rd_of_getElem? hf', bind_ok, rd_of_getElem? hs.1, bind_ok, rd_of_getElem? hs.2, bind_ok]
  simp only [u, getD_of_getElem? hf', getD_of_getElem? hs.1, getD_of_getElem? hs.2]
  by_cases hin : 0 ≤ a ∧ 0 ≤ b
  · rw [if_pos hin, rd_of_getElem? (getElem?_getD hgl), bind_ok]
    refine ⟨_, addAt_ok (by omega) _, by simpa using ht, fun r => ?_⟩
    rw [getD_addAt (by omega), if_pos hin]
  · rw [if_neg hin]
    refine ⟨t, rfl, ht, fun r => ?_⟩
    rw [if_neg hin]
    simp

/-- The flux the pressures `x` give on interior faces. -/
def intFlux (G : GridTopo) (trans fg : List Rat) (x : Nat → Rat) (f : Nat) : Rat :=
  if 0 ≤ G.faceCells.getD (2 * f) (-1) ∧ 0 ≤ G.faceCells.getD (2 * f + 1) (-1) then
    trans.getD f 0 * (x (G.faceCells.getD (2 * f) (-1)).toNat - x (G.faceCells.getD (2 * f + 1) (-1)).toNat + fg.getD f 0) else 0

/-- `s` has the right sizes and the right-hand side entries of the wells from number `k` on are as in `s0`. -/
def KeepB (A : Csr) (k : Nat) (b0 : List Rat) (s : Sys) : Prop := SysOk A s ∧ ∀ j, k ≤ j → s.b.getD j 0 = b0.getD j 0

theorem KeepB.mono {A : Csr} {k k' : Nat} {b0 : List Rat} {s : Sys} (h : KeepB A k b0 s) (hk : k ≤ k') : KeepB A k' b0 s :=
  ⟨h.1, fun j hj => h.2 j (by omega)⟩

theorem addSa_keep {A : Csr} (hA : MatOk A) {n : Nat} {b0 : List Rat} {s : Sys} (hs : KeepB A n b0 s) {i j k : Nat} (hk : ElmAt A i j k) (v : Rat) :
    ∃ s', addSa k v s = .ok s' ∧ KeepB A n b0 s' ∧ ∀ xr : XR, Res A s' xr = Res A s xr + if xr.2 = i then -(v * xr.1 j) else 0 := by
  obtain ⟨s', e, h1, h2, h3⟩ := addSa_res hA hs.1 hk v
  exact ⟨s', e, ⟨h1, by rw [h2]; exact hs.2⟩, h3⟩

theorem addB_keep {A : Csr} {n : Nat} {b0 : List Rat} {s : Sys} (hs : KeepB A n b0 s) {i : Nat} (hi : i < A.m) (hin : i < n) (v : Rat) :
    ∃ s', addB i v s = .ok s' ∧ KeepB A n b0 s' ∧ ∀ xr : XR, Res A s' xr = Res A s xr + if xr.2 = i then v else 0 := by
  obtain ⟨s', e, h1, h2, h3⟩ := addB_res hs.1 hi v
  exact ⟨s', e, ⟨h1, fun j hj => by rw [h2 j (by omega)]; exact hs.2 j hj⟩, h3⟩

theorem faceContrib_ok {G : GridTopo} {F : Option Forces} {A : Csr} (hv : G.Valid) (h0 : G.cellFacepos[0]? = some 0) (hA : Fits G F A) {trans fg : List Rat} (ht : G.nf ≤ trans.length)
    (hf : G.nf ≤ fg.length) (hfg : ∀ f, f < G.nf → ¬ G.Interior f → fg.getD f 0 = 0) {s : Sys} (hs : SysOk A s) :
    ∃ s', faceContrib G A trans fg s = .ok s' ∧ KeepB A G.nc s.b s' ∧
      ∀ xr : XR, Res A s' xr = Res A s xr - if xr.2 < G.nc then G.netOutflow (intFlux G trans fg xr.1) xr.2 else 0 := by
  have hp := hv.rowPos h0
  -- contribution of face `f` to the row of cell `c`
  let φ : (Nat → Rat) → Nat → Nat → Rat := fun x c f =>
    if G.faceCells.getD (2 * f) (-1) = (c : Int) then
      trans.getD f 0 * fg.getD f 0 + (if 0 ≤ G.faceCells.getD (2 * f + 1) (-1) then trans.getD f 0 * (x c - x (G.faceCells.getD (2 * f + 1) (-1)).toNat) else 0)
    else
      -(trans.getD f 0 * fg.getD f 0) + (if 0 ≤ G.faceCells.getD (2 * f) (-1) then trans.getD f 0 * (x c - x (G.faceCells.getD (2 * f) (-1)).toNat) else 0)
  suffices H : ∃ s', faceContrib G A trans fg s = .ok s' ∧ KeepB A G.nc s.b s' ∧ ∀ xr : XR, Res A s' xr = Res A s xr +
      ∑ c ∈ Finset.range G.nc, ∑ i ∈ Finset.Ico (G.cellFacepos.getD c 0) (G.cellFacepos.getD (c + 1) 0),
        (if xr.2 = c then -(φ xr.1 c (G.cellFaces.getD i 0)) else 0) by
    obtain ⟨s', e, hk, hr⟩ := H
    refine ⟨s', e, hk, fun xr => ?_⟩
    rw [hr, sum_rows_ite, sub_eq_add_neg]
    congr 1
    split
    · rename_i hlt
      rw [Finset.sum_neg_distrib, GridTopo.sum_row hv hlt, Finset.sum_filter]
      unfold GridTopo.netOutflow
      congr 1
      refine Finset.sum_congr rfl fun f hfm => ?_
      obtain ⟨a, b, hsd⟩ := hv.sides (Finset.mem_range.1 hfm)
      obtain ⟨ra, rb⟩ := hv.side_range hsd
      simp only [hsd.1, hsd.2, φ, intFlux, getD_of_getElem? hsd.1, getD_of_getElem? hsd.2, Option.some.injEq]
      by_cases ha : a = (xr.2 : Int)
      · subst ha
        have hb : b ≠ (xr.2 : Int) := fun e => hv.distinct f _ _ hsd (by omega) e.symm
        rw [if_pos (Or.inl rfl), if_pos rfl, if_pos rfl, if_neg hb]
        by_cases hb0 : 0 ≤ b
        · rw [if_pos hb0, if_pos ⟨by omega, hb0⟩]
          simp only [Int.toNat_natCast]
          ring
        · rw [if_neg hb0, if_neg (by omega), hfg f (Finset.mem_range.1 hfm)]
          · ring
          · rintro ⟨a', b', hs'⟩
            obtain ⟨_, e2⟩ := hsd.unique hs'
            omega
      · by_cases hb : b = (xr.2 : Int)
        · subst hb
          rw [if_pos (Or.inr rfl), if_neg ha, if_neg ha, if_pos rfl]
          by_cases ha0 : 0 ≤ a
          · rw [if_pos ha0, if_pos ⟨ha0, by omega⟩]
            simp only [Int.toNat_natCast]
            ring
          · rw [if_neg ha0, if_neg (by omega), hfg f (Finset.mem_range.1 hfm)]
            · ring
            · rintro ⟨a', b', hs'⟩
              obtain ⟨e1, _⟩ := hsd.unique hs'
              omega
        · rw [if_neg (by tauto), if_neg ha, if_neg hb]
          simp
    · simp
  have hdiag : ∀ c, ∃ k, c < G.nc → ElmAt A c c k := by
    intro c
    by_cases hc : c < G.nc
    · obtain ⟨k, hk⟩ := hA.diag c (by have := hA.nc; omega)
      exact ⟨k, fun _ => hk⟩
    · exact ⟨0, fun h => absurd h hc⟩
  choose J hJ using hdiag
  unfold faceContrib
  refine rowLoopPre_sum hp J (fun c hc => (hJ c hc).2.1) (KeepB A G.nc s.b) (Res A) (fun c i xr => if xr.2 = c then -(φ xr.1 c (G.cellFaces.getD i 0)) else 0)
    ⟨hs, fun _ _ => rfl⟩ ?_
  intro c i t hc h1 h2 hk
  have hcm : c < A.m := by have := hA.nc; omega
  obtain ⟨f, hf', hlt⟩ := hv.face_at hc h2
  obtain ⟨a, b, hsd⟩ := hv.sides hlt
  have hside := (hv.agree c f a b hsd).1 (GridTopo.hasFace_of hv hc h1 h2 hf')
  rw [rd_of_getElem? hf', bind_ok, rd_of_getElem? hsd.1, bind_ok, rd_of_getElem? hsd.2, bind_ok]
  simp only []
  rw [rd_of_getElem? (getElem?_getD (by omega)), bind_ok, rd_of_getElem? (getElem?_getD (by omega)), bind_ok]
  obtain ⟨t1, e1, k1, r1⟩ := addB_keep hk hcm hc (-(trans.getD f 0 * ((if a = (c : Int) then 1 else -1) * fg.getD f 0)))
  rw [e1, bind_ok]
  simp only [φ, getD_of_getElem? hf', getD_of_getElem? hsd.1, getD_of_getElem? hsd.2]
  by_cases ha : a = (c : Int)
  · simp only [if_pos ha] at r1 ⊢
    by_cases hb0 : 0 ≤ b
    · obtain ⟨b', rfl⟩ : ∃ b' : Nat, b = b' := ⟨b.toNat, by omega⟩
      subst ha
      obtain ⟨j2, hj2⟩ := (hA.adj f c b' hsd).1
      rw [if_pos hb0, Int.toNat_natCast, hj2.2.1, bind_ok]
      obtain ⟨t2, e2, k2, r2⟩ := addSa_keep hA.mat k1 (hJ c hc) (trans.getD f 0)
      obtain ⟨t3, e3, k3, r3⟩ := addSa_keep hA.mat k2 hj2 (-(trans.getD f 0))
      rw [e2, bind_ok, e3]
      refine ⟨t3, rfl, k3, fun xr => ?_⟩
      rw [r3, r2, r1]
      split
      · ring
      · ring
    · rw [if_neg hb0]
      refine ⟨t1, rfl, k1, fun xr => ?_⟩
      rw [r1]
      split
      · ring
      · ring
  · have hb : b = (c : Int) := by tauto
    simp only [if_neg ha] at r1 ⊢
    by_cases ha0 : 0 ≤ a
    · obtain ⟨a', rfl⟩ : ∃ a' : Nat, a = a' := ⟨a.toNat, by omega⟩
      subst hb
      obtain ⟨j2, hj2⟩ := (hA.adj f a' c hsd).2
      rw [if_pos ha0, Int.toNat_natCast, hj2.2.1, bind_ok]
      obtain ⟨t2, e2, k2, r2⟩ := addSa_keep hA.mat k1 (hJ c hc) (trans.getD f 0)
      obtain ⟨t3, e3, k3, r3⟩ := addSa_keep hA.mat k2 hj2 (-(trans.getD f 0))
      rw [e2, bind_ok, e3]
      refine ⟨t3, rfl, k3, fun xr => ?_⟩
      rw [r3, r2, r1]
      split
      · ring
      · ring
    · rw [if_neg ha0]
      refine ⟨t1, rfl, k1, fun xr => ?_⟩
      rw [r1]
      split
      · ring
      · ring

/-! ## Wells -/

/-- The cell of perforation `i`. -/
def pcell (W : Wells.W) (i : Nat) : Nat := (W.cells.getD i 0).toNat

/-- Connection transmissibility. -/
def pT (W : Wells.W) (mt : List Rat) (i : Nat) : Rat := mt.getD (pcell W i) 0 * W.wi.getD i 0

/-- What the assembled equations take for the flux of perforation `i` of well `w`. -/
def pFlux (nc : Nat) (W : Wells.W) (mt wdp : List Rat) (m : WellMode) (x : Nat → Rat) (w i : Nat) : Rat :=
  match m with
  | .shut => 0
  | .bhp p => pT W mt i * (p + wdp.getD i 0 - x (pcell W i))
  | .rate _ => pT W mt i * (x (nc + w) + wdp.getD i 0 - x (pcell W i))

/-- What perforation `i` adds to the equation of well `w`. -/
def pRow (nc : Nat) (W : Wells.W) (mt wdp : List Rat) (m : WellMode) (x : Nat → Rat) (w i : Nat) : Rat :=
  match m with
  | .shut => -(pT W mt i * x (nc + w))
  | .bhp p => pT W mt i * (p - x (nc + w))
  | .rate _ => -(pT W mt i * (x (nc + w) + wdp.getD i 0 - x (pcell W i)))

/-- The target rate. -/
def target : WellMode → Rat
  | .rate q => q
  | _ => 0

/-- What well `w` adds to the residual. -/
def wellTerm (nc : Nat) (W : Wells.W) (mt wdp : List Rat) (m : WellMode) (w : Nat) (xr : XR) : Rat :=
  ∑ i ∈ Finset.Ico (W.connpos.getD w 0) (W.connpos.getD (w + 1) 0),
    ((if xr.2 = pcell W i then pFlux nc W mt wdp m xr.1 w i else 0) + (if xr.2 = nc + w then pRow nc W mt wdp m xr.1 w i else 0)) +
  if xr.2 = nc + w then target m else 0

/-- The data of wells as used by the assembly. -/
structure WellData (G : GridTopo) (A : Csr) (W : Wells.W) (mt wdp : List Rat) : Prop where
  ok : WellsOk G W
  mt : G.nc ≤ mt.length
  wdp : numPerf W ≤ wdp.length
  mat : MatOk A
  m : A.m = G.nc + W.nw
  diag : ∀ i, i < A.m → HasElm A i i
  elm : ∀ w i c, w < W.nw → IsPerf W w i c → HasElm A c (G.nc + w) ∧ HasElm A (G.nc + w) c

theorem perf_ok {G : GridTopo} {A : Csr} {W : Wells.W} {mt wdp : List Rat} (h : WellData G A W mt wdp) {w i : Nat} (hw : w < W.nw)
    (h1 : W.connpos.getD w 0 ≤ i) (h2 : i < W.connpos.getD (w + 1) 0) :
    perf W mt i = .ok (pcell W i, pT W mt i) ∧ rd wdp i = .ok (wdp.getD i 0) ∧ IsPerf W w i (pcell W i) ∧ pcell W i < G.nc := by
  have hi : i < numPerf W := h.ok.pos.lt_total hw h2
  obtain ⟨h3, h4⟩ := cell_at h.ok hi
  refine ⟨?_, rd_of_getElem? (getElem?_getD (by have := h.wdp; omega)), ⟨_, _, h.ok.pos.get (by omega), h.ok.pos.get (c := w + 1) hw, h1, h2, h3⟩, h4⟩
  unfold perf
  have := h.ok.wi
  have := h.mt
  rw [rd_of_getElem? h3, bind_ok, index_ok, bind_ok, rd_of_getElem? (getElem?_getD (by omega)), bind_ok, rd_of_getElem? (getElem?_getD (by omega)), bind_ok]
  rfl

theorem bhpWell_ok {G : GridTopo} {A : Csr} {W : Wells.W} {mt wdp : List Rat} (h : WellData G A W mt wdp) {w : Nat} (hw : w < W.nw) (p : Rat) {b0 : List Rat} {s : Sys}
    (hs : KeepB A (G.nc + w) b0 s) :
    ∃ s', bhpWell A G.nc w W mt wdp p s = .ok s' ∧ KeepB A (G.nc + (w + 1)) b0 s' ∧ ∀ xr : XR, Res A s' xr = Res A s xr + wellTerm G.nc W mt wdp (.bhp p) w xr := by
  have hwm : G.nc + w < A.m := by rw [h.m]; omega
  obtain ⟨jw, hjw⟩ := h.diag (G.nc + w) hwm
  have hs := hs.mono (k' := G.nc + (w + 1)) (by omega)
  unfold bhpWell wellTerm target
  rw [hjw.2.1, bind_ok, rd_of_getElem? (h.ok.pos.get (by omega)), bind_ok, rd_of_getElem? (h.ok.pos.get (c := w + 1) hw), bind_ok]
  simp only [ite_self, add_zero]
  refine forRange_sum (h.ok.pos.le hw) (KeepB A (G.nc + (w + 1)) b0) (Res A) _ hs ?_
  intro i t h1 h2 hk
  obtain ⟨ep, ed, _, hc⟩ := perf_ok h hw h1 h2
  have hcm : pcell W i < A.m := by rw [h.m]; omega
  obtain ⟨jc, hjc⟩ := h.diag _ hcm
  obtain ⟨t1, e1, k1, r1⟩ := addSa_keep h.mat hk hjc (pT W mt i)
  obtain ⟨t2, e2, k2, r2⟩ := addB_keep k1 hcm (by omega) (pT W mt i * (p + wdp.getD i 0))
  obtain ⟨t3, e3, k3, r3⟩ := addSa_keep h.mat k2 hjw (pT W mt i)
  obtain ⟨t4, e4, k4, r4⟩ := addB_keep k3 hwm (by omega) (pT W mt i * p)
  rw [ep, bind_ok, ed, bind_ok, hjc.2.1, bind_ok, e1, bind_ok, e2, bind_ok, e3, bind_ok, e4]
  refine ⟨t4, rfl, k4, fun xr => ?_⟩
  rw [r4, r3, r2, r1]
  unfold pFlux pRow
  simp only []
  split <;> split <;> ring

theorem rateWell_ok {G : GridTopo} {A : Csr} {W : Wells.W} {mt wdp : List Rat} (h : WellData G A W mt wdp) {w : Nat} (hw : w < W.nw) (q : Rat) {b0 : List Rat} {s : Sys}
    (hs : KeepB A (G.nc + w) b0 s) :
    ∃ s', rateWell A G.nc w W mt wdp q s = .ok s' ∧ KeepB A (G.nc + (w + 1)) b0 s' ∧ ∀ xr : XR, Res A s' xr = Res A s xr + wellTerm G.nc W mt wdp (.rate q) w xr := by
  have hwm : G.nc + w < A.m := by rw [h.m]; omega
  obtain ⟨jw, hjw⟩ := h.diag (G.nc + w) hwm
  have hs := hs.mono (k' := G.nc + (w + 1)) (by omega)
  unfold rateWell wellTerm target
  rw [hjw.2.1, bind_ok, rd_of_getElem? (h.ok.pos.get (by omega)), bind_ok, rd_of_getElem? (h.ok.pos.get (c := w + 1) hw), bind_ok]
  suffices H : ∃ s', forRange (W.connpos.getD w 0) (W.connpos.getD (w + 1) 0) (fun i s => do
      let p ← perf W mt i
      let d ← rd wdp i
      let jcc ← elmIndex p.1 p.1 A.ia A.ja
      let jcw ← elmIndex p.1 (G.nc + w) A.ia A.ja
      let jwc ← elmIndex (G.nc + w) p.1 A.ia A.ja
      let s ← addSa jcc p.2 s
      let s ← addSa jcw (-p.2) s
      let s ← addB p.1 (p.2 * d) s
      let s ← addSa jwc (-p.2) s
      let s ← addSa jw p.2 s
      addB (G.nc + w) (-(p.2 * d)) s) s = .ok s' ∧ KeepB A (G.nc + (w + 1)) b0 s' ∧ ∀ xr : XR, Res A s' xr = Res A s xr +
      ∑ i ∈ Finset.Ico (W.connpos.getD w 0) (W.connpos.getD (w + 1) 0),
        ((if xr.2 = pcell W i then pFlux G.nc W mt wdp (.rate q) xr.1 w i else 0) + (if xr.2 = G.nc + w then pRow G.nc W mt wdp (.rate q) xr.1 w i else 0)) by
    obtain ⟨s1, e1, k1, r1⟩ := H
    obtain ⟨s2, e2, k2, r2⟩ := addB_keep k1 hwm (by omega) q
    rw [e1, bind_ok]
    refine ⟨s2, e2, k2, fun xr => ?_⟩
    rw [r2, r1, add_assoc]
  refine forRange_sum (h.ok.pos.le hw) (KeepB A (G.nc + (w + 1)) b0) (Res A) _ hs ?_
  intro i t h1 h2 hk
  obtain ⟨ep, ed, hper, hc⟩ := perf_ok h hw h1 h2
  have hcm : pcell W i < A.m := by rw [h.m]; omega
  obtain ⟨jc, hjc⟩ := h.diag _ hcm
  obtain ⟨⟨jcw, hjcw⟩, ⟨jwc, hjwc⟩⟩ := h.elm w i _ hw hper
  obtain ⟨t1, e1, k1, r1⟩ := addSa_keep h.mat hk hjc (pT W mt i)
  obtain ⟨t2, e2, k2, r2⟩ := addSa_keep h.mat k1 hjcw (-pT W mt i)
  obtain ⟨t3, e3, k3, r3⟩ := addB_keep k2 hcm (by omega) (pT W mt i * wdp.getD i 0)
  obtain ⟨t4, e4, k4, r4⟩ := addSa_keep h.mat k3 hjwc (-pT W mt i)
  obtain ⟨t5, e5, k5, r5⟩ := addSa_keep h.mat k4 hjw (pT W mt i)
  obtain ⟨t6, e6, k6, r6⟩ := addB_keep k5 hwm (by omega) (-(pT W mt i * wdp.getD i 0))
  rw [ep, bind_ok, ed, bind_ok, hjc.2.1, bind_ok, hjcw.2.1, bind_ok, hjwc.2.1, bind_ok, e1, bind_ok, e2, bind_ok, e3, bind_ok, e4, bind_ok, e5, bind_ok, e6]
  refine ⟨t6, rfl, k6, fun xr => ?_⟩
  rw [r6, r5, r4, r3, r2, r1]
  unfold pFlux pRow
  simp only []
  split <;> split <;> ring

theorem shutWell_ok {G : GridTopo} {A : Csr} {W : Wells.W} {mt wdp : List Rat} (h : WellData G A W mt wdp) {w : Nat} (hw : w < W.nw) {b0 : List Rat} {s : Sys}
    (hs : KeepB A (G.nc + w) b0 s) (hb0 : b0.getD (G.nc + w) 0 = 0) :
    ∃ s', shutWell A G.nc w W mt s = .ok s' ∧ KeepB A (G.nc + (w + 1)) b0 s' ∧ ∀ xr : XR, Res A s' xr = Res A s xr + wellTerm G.nc W mt wdp .shut w xr := by
  have hwm : G.nc + w < A.m := by rw [h.m]; omega
  obtain ⟨jw, hjw⟩ := h.diag (G.nc + w) hwm
  unfold shutWell wellTerm target
  rw [hjw.2.1, bind_ok, rd_of_getElem? (h.ok.pos.get (by omega)), bind_ok, rd_of_getElem? (h.ok.pos.get (c := w + 1) hw), bind_ok]
  suffices H : ∃ s', forRange (W.connpos.getD w 0) (W.connpos.getD (w + 1) 0) (fun i s => do
      let p ← perf W mt i
      addSa jw p.2 s) s = .ok s' ∧ KeepB A (G.nc + w) b0 s' ∧ ∀ xr : XR, Res A s' xr = Res A s xr +
      ∑ i ∈ Finset.Ico (W.connpos.getD w 0) (W.connpos.getD (w + 1) 0),
        ((if xr.2 = pcell W i then pFlux G.nc W mt wdp .shut xr.1 w i else 0) + (if xr.2 = G.nc + w then pRow G.nc W mt wdp .shut xr.1 w i else 0)) by
    obtain ⟨s1, e1, k1, r1⟩ := H
    have hbl : G.nc + w < s1.b.length := by rw [k1.1.2]; exact hwm
    rw [e1, bind_ok, wr_ok hbl, bind_ok]
    have hz : s1.b.getD (G.nc + w) 0 = 0 := by rw [k1.2 _ (le_refl _), hb0]
    have hset : s1.b.set (G.nc + w) 0 = s1.b := by
      apply List.ext_getElem?
      intro j
      rw [List.getElem?_set]
      split
      · rename_i e
        subst e
        rw [getElem?_getD hbl, hz]
      · rfl
    rw [hset]
    refine ⟨s1, rfl, k1.mono (by omega), fun xr => ?_⟩
    rw [r1]
    simp
  refine forRange_sum (h.ok.pos.le hw) (KeepB A (G.nc + w) b0) (Res A) _ hs ?_
  intro i t h1 h2 hk
  obtain ⟨ep, ed, hper, hc⟩ := perf_ok h hw h1 h2
  obtain ⟨t1, e1, k1, r1⟩ := addSa_keep h.mat hk hjw (pT W mt i)
  rw [ep, bind_ok, e1]
  refine ⟨t1, rfl, k1, fun xr => ?_⟩
  rw [r1]
  unfold pFlux pRow
  simp

theorem allOnes_ok {distr : List Rat} {n base : Nat} (h : ∀ j, j < n → distr[base + j]? = some 1) : allOnes distr base n = .ok true := by
  induction n generalizing base with
  | zero => rfl
  | succ n ih =>
    have h0 := h 0 (by omega)
    rw [allOnes, rd_of_getElem? (by simpa using h0), bind_ok, if_neg (by simp)]
    exact ih (fun j hj => by have := h (j + 1) (by omega); rw [← this]; congr 1; omega)

def isBhp : WellMode → Bool
  | .bhp _ => true
  | _ => false

/-- All wells. -/
theorem wellContrib_ok {G : GridTopo} {A : Csr} {W : Wells.W} {mt wdp : List Rat} (h : WellData G A W mt wdp) {mode : Nat → WellMode}
    (hm : ∀ w, w < W.nw → HasMode W w (mode w)) {s : Sys} (hs : SysOk A s) (hb : ∀ w, w < W.nw → s.b.getD (G.nc + w) 0 = 0) :
    ∃ s', wellContrib A G.nc W mt wdp s = .ok s' ∧ SysOk A s'.sys ∧ s'.ok = true ∧ (s'.allRate = false ↔ ∃ w, w < W.nw ∧ isBhp (mode w) = true) ∧
      ∀ xr : XR, Res A s'.sys xr = Res A s xr + ∑ w ∈ Finset.range W.nw, wellTerm G.nc W mt wdp (mode w) w xr := by
  suffices H : ∃ s', wellContrib A G.nc W mt wdp s = .ok s' ∧ KeepB A (G.nc + W.nw) s.b s'.sys ∧ s'.ok = true ∧
      (s'.allRate = false ↔ ∃ w, w < W.nw ∧ isBhp (mode w) = true) ∧
      ∀ xr : XR, Res A s'.sys xr = Res A s xr + ∑ w ∈ Finset.range W.nw, wellTerm G.nc W mt wdp (mode w) w xr by
    obtain ⟨s', e, k, r⟩ := H
    exact ⟨s', e, k.1, r⟩
  unfold wellContrib
  refine loop_inv (P := fun k (t : WState) => KeepB A (G.nc + k) s.b t.sys ∧ t.ok = true ∧
      (t.allRate = false ↔ ∃ w, w < k ∧ isBhp (mode w) = true) ∧
      ∀ xr : XR, Res A t.sys xr = Res A s xr + ∑ w ∈ Finset.range k, wellTerm G.nc W mt wdp (mode w) w xr)
    ⟨⟨hs, fun _ _ => rfl⟩, rfl, by simp, by simp⟩ ?_
  rintro w t hw ⟨hk, hok, hall, hr⟩
  obtain ⟨c, hc, hmode⟩ := hm w hw
  rw [rd_of_getElem? hc, bind_ok]
  have hstep : ∀ (s' : Sys) (ar : Bool), KeepB A (G.nc + (w + 1)) s.b s' → (ar = false ↔ t.allRate = false ∨ isBhp (mode w) = true) →
      (∀ xr : XR, Res A s' xr = Res A t.sys xr + wellTerm G.nc W mt wdp (mode w) w xr) →
      KeepB A (G.nc + (w + 1)) s.b ({ sys := s', allRate := ar, ok := t.ok } : WState).sys ∧ ({ sys := s', allRate := ar, ok := t.ok } : WState).ok = true ∧
      (({ sys := s', allRate := ar, ok := t.ok } : WState).allRate = false ↔ ∃ w', w' < w + 1 ∧ isBhp (mode w') = true) ∧
      ∀ xr : XR, Res A ({ sys := s', allRate := ar, ok := t.ok } : WState).sys xr = Res A s xr + ∑ w ∈ Finset.range (w + 1), wellTerm G.nc W mt wdp (mode w) w xr := by
    intro s' ar h1 h2 h3
    refine ⟨h1, hok, ?_, fun xr => ?_⟩
    · rw [h2, hall]
      constructor
      · rintro (⟨w', h1, h2⟩ | h)
        · exact ⟨w', by omega, h2⟩
        · exact ⟨w, by omega, h⟩
      · rintro ⟨w', h4, h5⟩
        by_cases e : w' = w
        · subst e; exact Or.inr h5
        · exact Or.inl ⟨w', by omega, h5⟩
    · rw [h3, hr, Finset.sum_range_succ, add_assoc]
  have hmw : ∃ m, m = mode w := ⟨_, rfl⟩
  obtain ⟨m, hmw⟩ := hmw
  rw [← hmw] at hmode hstep
  cases m with
  | shut =>
    have hc0 : c.current < 0 := hmode
    rw [if_pos hc0]
    obtain ⟨s1, e1, k1, r1⟩ := shutWell_ok h hw hk (hb w hw)
    rw [e1, bind_ok]
    exact ⟨_, rfl, hstep s1 t.allRate k1 (by simp [isBhp]) r1⟩
  | bhp p =>
    obtain ⟨k, hcur, hnum, hty, htar⟩ := hmode
    rw [if_neg (by omega)]
    obtain ⟨s1, e1, k1, r1⟩ := bhpWell_ok h hw p hk
    unfold openWell
    rw [check_ok (by rw [hcur]; simpa using hnum), bind_ok, hcur, index_ok, bind_ok, rd_of_getElem? hty, bind_ok]
    simp only []
    rw [rd_of_getElem? htar, bind_ok, e1, bind_ok]
    exact ⟨_, rfl, hstep s1 false k1 (by simp [isBhp]) r1⟩
  | rate q =>
    obtain ⟨k, hcur, hnum, hty, htar, hone⟩ := hmode
    rw [if_neg (by omega)]
    obtain ⟨s1, e1, k1, r1⟩ := rateWell_ok h hw q hk
    unfold openWell
    rw [check_ok (by rw [hcur]; simpa using hnum), bind_ok, hcur, index_ok, bind_ok, rd_of_getElem? hty, bind_ok]
    simp only []
    rw [allOnes_ok hone, bind_ok, if_pos (by simp [hok]), rd_of_getElem? htar, bind_ok, e1, bind_ok]
    exact ⟨_, rfl, hstep s1 t.allRate k1 (by simp [isBhp]) r1⟩

end Opm.IfsTpfa
