import Verif.Proofs.IfsFlux
import Mathlib.Algebra.BigOperators.Ring.Finset
import Mathlib.Algebra.Order.BigOperators.Group.Finset
/-! # Pressure problems: from residuals to conservation -/

namespace Opm.IfsTpfa
open Opm Opm.SparseSys Graph

/-! ## Problems -/

theorem allItems_congr {G : GridTopo} {W W' : Wells.W} (h1 : W.nw = W'.nw) (h2 : W.connpos = W'.connpos) (h3 : W.cells = W'.cells) :
    wellItems G.nc W = wellItems G.nc W' := by
  unfold wellItems perfItems
  rw [h1, h2, h3]

/-- What a problem gives the proofs. -/
structure Setting (G : GridTopo) (F : Option Forces) (trans gpress : List Rat) (h : Data) : Prop where
  valid : G.Valid
  first : G.cellFacepos[0]? = some 0
  nonempty : 0 < G.nc
  forces : ForcesOk G (F.getD noForces)
  sizes : InOk G trans gpress
  fits : Fits G F h.A
  data : DataOk G h
  x : h.x.length = h.A.m
  work : h.work.length = h.A.m
  pattern : ∃ W, (∀ W', W = some W' → WellsOk G W') ∧ Pattern G W h.A

theorem construct_ok (junk : Nat → Nat) (jd : Nat → Rat) {G : GridTopo} (hv : G.Valid) (hnc : 0 < G.nc) {W : Option Wells.W} (hW : ∀ W', W = some W' → WellsOk G W') :
    ∃ h, construct junk jd G W = .ok h ∧ Pattern G W h.A ∧ h.sa.length = h.A.nnz ∧ h.b.length = h.A.m ∧ h.x.length = h.A.m ∧ h.fgrav.length = G.nf ∧ h.work.length = h.A.m := by
  obtain ⟨A, e, p⟩ := constructMatrix_ok junk hv hnc hW
  unfold construct
  rw [e, bind_ok]
  exact ⟨_, rfl, p, by simp, by simp, by simp, by simp, by simp⟩

theorem isPerf_congr {W W' : Wells.W} (h2 : W.connpos = W'.connpos) (h3 : W.cells = W'.cells) {w i c : Nat} : IsPerf W w i c ↔ IsPerf W' w i c := by
  unfold IsPerf
  rw [h2, h3]

theorem Problem.setting {G : GridTopo} {F : Option Forces} {trans gpress : List Rat} {h : Data} (p : Problem G F trans gpress h) : Setting G F trans gpress h := by
  obtain ⟨junk, jd, Wc, hd, hWc, hsame, hcon, hsh⟩ := p.data
  obtain ⟨hd', e, hp, l1, l2, l3, l4, l5⟩ := construct_ok junk jd p.valid p.nonempty hWc
  rw [e] at hcon
  cases hcon
  refine ⟨p.valid, p.first, p.nonempty, p.forces, p.sizes, ?_, ⟨?_, ?_, ?_⟩, ?_, ?_, ⟨Wc, hWc, ?_⟩⟩
  · rw [hsh.A]
    refine ⟨hp.mat, by rw [hp.m]; omega, fun i hi => hp.diag hi, fun f a b hs => hp.adj p.valid hs, ?_⟩
    intro F' W hF hW
    subst hF
    obtain ⟨W', e1, e2, e3, e4⟩ := hsame W hW
    subst e1
    refine ⟨by rw [hp.m, e2]; rfl, fun w i c hw hper => ?_⟩
    rw [e2] at hw
    exact hp.perf (hWc W' rfl) hw ((isPerf_congr e3 e4).1 hper)
  · rw [hsh.sa, hsh.A]; exact l1
  · rw [hsh.b, hsh.A]; exact l2
  · rw [hsh.fgrav, l4]
  · rw [hsh.x, hsh.A]; exact l3
  · rw [hsh.work, hsh.A]; exact l5
  · rw [hsh.A]; exact hp

theorem SameShape.refl (h : Data) : SameShape h h := ⟨rfl, rfl, rfl, rfl, rfl, rfl⟩

theorem SameShape.trans {h1 h2 h3 : Data} (a : SameShape h1 h2) (b : SameShape h2 h3) : SameShape h1 h3 :=
  ⟨b.A.trans a.A, b.sa.trans a.sa, b.b.trans a.b, b.x.trans a.x, b.fgrav.trans a.fgrav, b.work.trans a.work⟩

theorem Problem.of_same {G : GridTopo} {F : Option Forces} {trans gpress : List Rat} {h h' : Data} (p : Problem G F trans gpress h) (hs : SameShape h h') :
    Problem G F trans gpress h' := by
  obtain ⟨junk, jd, Wc, hd, hWc, hsame, hcon, hsh⟩ := p.data
  exact ⟨p.valid, p.first, p.nonempty, p.forces, p.sizes, junk, jd, Wc, hd, hWc, hsame, hcon, hsh.trans hs⟩

theorem someBhp_iff {F : Forces} {mode : Nat → WellMode} (hm : Modes F mode) : SomeBhp F mode ↔ SomeBhpWell F := by
  constructor
  · rintro ⟨W, w, hW, hw, hb⟩
    have := hm W hW w hw
    cases hmo : mode w with
    | bhp p => rw [hmo] at this; exact ⟨W, w, p, hW, hw, this⟩
    | shut => rw [hmo] at hb; cases hb
    | rate q => rw [hmo] at hb; cases hb
  · rintro ⟨W, w, p, hW, hw, hb⟩
    refine ⟨W, w, hW, hw, ?_⟩
    obtain ⟨c, hc, k, h1, _, h2, _⟩ := hb
    obtain ⟨c', hc', hmode⟩ := hm W hW w hw
    rw [hc] at hc'
    cases hc'
    cases hmo : mode w with
    | bhp p => rfl
    | shut => rw [hmo] at hmode; have : c.current < 0 := hmode; omega
    | rate q =>
      rw [hmo] at hmode
      obtain ⟨k', h3, _, h4, _⟩ := hmode
      have : k = k' := by omega
      subst this
      rw [h2] at h4
      cases h4

theorem mode_unique {W : Wells.W} {w : Nat} {m m' : WellMode} (h : HasMode W w m) (h' : HasMode W w m') : m = m' := by
  obtain ⟨c, hc, hm⟩ := h
  obtain ⟨c', hc', hm'⟩ := h'
  rw [hc] at hc'
  cases hc'
  have hkk : ∀ k k' : Nat, c.current = k → c.current = k' → k = k' := by intro k k' h1 h2; omega
  cases m with
  | shut =>
    have hm : c.current < 0 := hm
    cases m' with
    | shut => rfl
    | bhp p => obtain ⟨k, h1, _⟩ := hm'; omega
    | rate q => obtain ⟨k, h1, _⟩ := hm'; omega
  | bhp p =>
    obtain ⟨k, h1, _, h2, h3⟩ := hm
    cases m' with
    | shut => have hm' : c.current < 0 := hm'; omega
    | bhp p' =>
      obtain ⟨k', h1', _, h2', h3'⟩ := hm'
      rw [hkk k k' h1 h1', h3'] at h3
      rw [Option.some.inj h3]
    | rate q =>
      obtain ⟨k', h1', _, h2', h3'⟩ := hm'
      rw [hkk k k' h1 h1', h2'] at h2
      cases h2
  | rate q =>
    obtain ⟨k, h1, _, h2, h3, _⟩ := hm
    cases m' with
    | shut => have hm' : c.current < 0 := hm'; omega
    | bhp p' =>
      obtain ⟨k', h1', _, h2', h3'⟩ := hm'
      rw [hkk k k' h1 h1', h2'] at h2
      cases h2
    | rate q' =>
      obtain ⟨k', h1', _, h2', h3', _⟩ := hm'
      rw [hkk k k' h1 h1', h3'] at h3
      rw [Option.some.inj h3]

/-! ## Rows of the balance -/

theorem perfTrans_eq (F : Forces) (W : Wells.W) (i : Nat) : perfTrans F W i = pT W (mtOf F) i := rfl

theorem pcell_lt {G : GridTopo} {W : Wells.W} (hW : WellsOk G W) {w i : Nat} (hw : w < W.nw) (hi : i < W.connpos.getD (w + 1) 0) : pcell W i < G.nc :=
  (cell_at hW (hW.pos.lt_total hw hi)).2

theorem bcsSum_well {G : GridTopo} (hv : G.Valid) {F : Forces} (hF : ForcesOk G F) (trans : List Rat) (x : Nat → Rat) {r : Nat} (hr : G.nc ≤ r) : bcsSum G F trans (x, r) = 0 := by
  unfold bcsSum
  cases hB : F.bc with
  | none => rfl
  | some bc =>
    have h := hF.bc bc hB
    show bcSum G bc trans (x, r) = 0
    unfold bcSum
    refine Finset.sum_eq_zero fun i hi => Finset.sum_eq_zero fun j hj => ?_
    rw [Finset.mem_range] at hi
    rw [Finset.mem_Ico] at hj
    obtain ⟨_, _, _, _, _, _, hc, _⟩ := bcFace_ok hv h (h.pos.lt_total hi hj.2)
    rw [if_neg]
    show ¬ r = _
    omega

/-- The equation of a well. -/
theorem balance_well {G : GridTopo} (hv : G.Valid) {F : Forces} (hF : ForcesOk G F) {W : Wells.W} (hW : F.wells = some W) (mode : Nat → WellMode) (trans fg : List Rat)
    (x : Nat → Rat) {w : Nat} (hw : w < W.nw) :
    balance G F mode trans fg (x, G.nc + w) =
      ∑ i ∈ Finset.Ico (W.connpos.getD w 0) (W.connpos.getD (w + 1) 0), pRow G.nc W (mtOf F) (wdpOf F) (mode w) x w i + target (mode w) := by
  have hWo := (hF.wells W hW).1
  unfold balance
  rw [if_neg (by simp), bcsSum_well hv hF trans x (by omega), zero_add, add_zero]
  unfold wellsSum
  rw [hW]
  simp only []
  rw [Finset.sum_eq_single w]
  · unfold wellTerm
    simp only [if_true]
    congr 1
    refine Finset.sum_congr rfl fun i hi => ?_
    rw [Finset.mem_Ico] at hi
    have := pcell_lt hWo hw hi.2
    rw [if_neg (by omega), zero_add]
  · intro w' hw' hne
    rw [Finset.mem_range] at hw'
    unfold wellTerm
    simp only []
    rw [if_neg (by omega), add_zero]
    refine Finset.sum_eq_zero fun i hi => ?_
    rw [Finset.mem_Ico] at hi
    have := pcell_lt hWo hw' hi.2
    rw [if_neg (by omega), if_neg (by omega), add_zero]
  · intro hn
    exact absurd (Finset.mem_range.2 hw) hn

/-- The well part of the equation of a cell. -/
theorem wellsSum_cell {G : GridTopo} {F : Forces} {W : Wells.W} (hW : F.wells = some W) (mode : Nat → WellMode) (x : Nat → Rat) {c : Nat}
    (hc : c < G.nc) :
    wellsSum G.nc F mode (x, c) = ∑ w ∈ Finset.range W.nw, ∑ i ∈ Finset.Ico (W.connpos.getD w 0) (W.connpos.getD (w + 1) 0),
      if c = pcell W i then pFlux G.nc W (mtOf F) (wdpOf F) (mode w) x w i else 0 := by
  unfold wellsSum
  rw [hW]
  simp only []
  refine Finset.sum_congr rfl fun w _ => ?_
  unfold wellTerm
  simp only []
  rw [if_neg (by omega), add_zero]
  refine Finset.sum_congr rfl fun i _ => ?_
  rw [if_neg (by omega : ¬ c = G.nc + w), add_zero]

/-- Row sums to inflow. -/
theorem wellInflow_eq {G : GridTopo} {W : Wells.W} (hW : WellsOk G W) (q : Nat → Rat) (c : Nat) :
    wellInflow W q c = ∑ w ∈ Finset.range W.nw, ∑ i ∈ Finset.Ico (W.connpos.getD w 0) (W.connpos.getD (w + 1) 0), if c = pcell W i then q i else 0 := by
  rw [sum_rows hW.pos]
  unfold wellInflow numPerf
  refine Finset.sum_congr rfl fun i hi => ?_
  rw [Finset.mem_range] at hi
  obtain ⟨h1, h2⟩ := cell_at hW hi
  rw [h1]
  have : pcell W i = (W.cells.getD i 0).toNat := rfl
  rw [← this]
  by_cases e : c = pcell W i
  · rw [if_pos e, if_pos (by rw [e])]
  · rw [if_neg e, if_neg (by simp; omega)]

/-- In a solution the well unknown of a pressure controlled well is its target, as far as it matters. -/
theorem bhp_row {G : GridTopo} (hv : G.Valid) {F : Forces} (hF : ForcesOk G F) {W : Wells.W} (hW : F.wells = some W) {mode : Nat → WellMode} {trans fg : List Rat}
    {x : Nat → Rat} (hn : PerfsNonneg F) {w : Nat} (hw : w < W.nw) {p : Rat} (hm : mode w = .bhp p) (hb : balance G F mode trans fg (x, G.nc + w) = 0) :
    ∀ i, W.connpos.getD w 0 ≤ i → i < W.connpos.getD (w + 1) 0 → pT W (mtOf F) i = 0 ∨ x (G.nc + w) = p := by
  intro i h1 h2
  rw [balance_well hv hF hW mode trans fg x hw, hm] at hb
  simp only [pRow, target, add_zero] at hb
  rw [← Finset.sum_mul] at hb
  have hWo := (hF.wells W hW).1
  rcases mul_eq_zero.1 hb with h | h
  · left
    have hnn : ∀ j ∈ Finset.Ico (W.connpos.getD w 0) (W.connpos.getD (w + 1) 0), 0 ≤ pT W (mtOf F) j := by
      intro j hj
      rw [Finset.mem_Ico] at hj
      exact hn W hW j (hWo.pos.lt_total hw hj.2)
    exact (Finset.sum_eq_zero_iff_of_nonneg hnn).1 h i (Finset.mem_Ico.2 ⟨h1, h2⟩)
  · right; linarith

theorem aFlux_eq_pFlux {G : GridTopo} (hv : G.Valid) {F : Forces} (hF : ForcesOk G F) {W : Wells.W} (hW : F.wells = some W) {mode : Nat → WellMode} {trans fg : List Rat}
    {x : Nat → Rat} (hn : PerfsNonneg F) {w : Nat} (hw : w < W.nw) (hb : balance G F mode trans fg (x, G.nc + w) = 0) {i : Nat}
    (h1 : W.connpos.getD w 0 ≤ i) (h2 : i < W.connpos.getD (w + 1) 0) :
    aFlux G.nc W (mtOf F) (wdpOf F) (mode w) x w i = pFlux G.nc W (mtOf F) (wdpOf F) (mode w) x w i := by
  cases hm : mode w with
  | shut => rfl
  | rate q => rfl
  | bhp p =>
    simp only [aFlux, pFlux]
    rcases bhp_row hv hF hW hn hw hm hb i h1 h2 with h | h
    · rw [h]; ring
    · rw [h]

/-- Conservation. -/
theorem conservation {G : GridTopo} (hv : G.Valid) {F : Forces} (hF : ForcesOk G F) {mode : Nat → WellMode} {trans fg xs : List Rat}
    (hn : PerfsNonneg F) {s0 s : Soln} (hs : FluxOk G F mode trans fg xs s0 s)
    (hw : ∀ W w, F.wells = some W → w < W.nw → balance G F mode trans fg (fun k => xs.getD k 0, G.nc + w) = 0) {c : Nat} (hc : c < G.nc) :
    balance G F mode trans fg (fun k => xs.getD k 0, c) = srcOf F c + wellSource F s c - G.netOutflow (fun f => s.faceFlux.getD f 0) c := by
  have h1 : G.netOutflow (fun f => s.faceFlux.getD f 0) c = G.netOutflow (intFlux G trans fg (fun k => xs.getD k 0)) c - bcsSum G F trans (fun k => xs.getD k 0, c) := by
    unfold bcsSum
    cases hB : F.bc with
    | none =>
      rw [netOutflow_congr (fun f hf => hs.face f hf (fun bc e => by rw [hB] at e; cases e)) c]
      simp
    | some bc =>
      refine netOutflow_bc hv (hF.bc bc hB) (hs.bc bc hB) (fun f hf h => hs.face f hf fun bc' e => ?_) c
      rw [hB] at e; cases e; exact h
  have h2 : wellSource F s c = wellsSum G.nc F mode (fun k => xs.getD k 0, c) := by
    unfold wellSource
    cases hW : F.wells with
    | none => unfold wellsSum; rw [hW]
    | some W =>
      simp only []
      rw [wellsSum_cell hW mode _ hc, wellInflow_eq (hF.wells W hW).1]
      refine Finset.sum_congr rfl fun w hw' => Finset.sum_congr rfl fun i hi => ?_
      rw [Finset.mem_range] at hw'
      rw [Finset.mem_Ico] at hi
      rw [hs.perf W hW w i hw' hi.1 hi.2, aFlux_eq_pFlux hv hF hW hn hw' (hw W w hW hw') hi.1 hi.2]
  rw [h1, h2]
  unfold balance
  rw [if_pos hc]
  ring

/-- A solution of the assembled system makes all balances zero. -/
theorem solves_iff {h : Data} {x : Nat → Rat} : Solves h x ↔ ∀ r, r < h.A.m → Res h.A ⟨h.sa, h.b⟩ (x, r) = 0 := by
  unfold Solves Res
  constructor
  · intro H r hr; rw [H r hr]; simp
  · intro H r hr; have := H r hr; simp only at this; linarith

end Opm.IfsTpfa
