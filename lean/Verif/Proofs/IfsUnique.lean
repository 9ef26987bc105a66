import Verif.Proofs.IfsRock
import Mathlib.LinearAlgebra.FiniteDimensional.Basic
/-! # Energy of the difference of two solutions -/

namespace Opm.IfsTpfa
open Opm Opm.SparseSys Graph

/-- The value of `d` on a side of a face; nothing outside. -/
def sideVal (d : Nat → Rat) (a : Int) : Rat := if 0 ≤ a then d a.toNat else 0

/-- Summation by parts. -/
theorem sum_by_parts {G : GridTopo} (hv : G.Valid) (d q : Nat → Rat) :
    ∑ c ∈ Finset.range G.nc, d c * G.netOutflow q c =
      ∑ f ∈ Finset.range G.nf, q f * (sideVal d (G.faceCells.getD (2 * f) (-1)) - sideVal d (G.faceCells.getD (2 * f + 1) (-1))) := by
  unfold GridTopo.netOutflow
  simp only [Finset.mul_sum]
  rw [Finset.sum_comm]
  refine Finset.sum_congr rfl fun f hf => ?_
  obtain ⟨a, b, hs⟩ := hv.sides (Finset.mem_range.1 hf)
  obtain ⟨ra, rb⟩ := hv.side_range hs
  simp only [hs.1, hs.2, getD_of_getElem? hs.1, getD_of_getElem? hs.2, Option.some.injEq]
  have key : ∀ a : Int, (a = -1 ∨ (0 ≤ a ∧ a < G.nc)) → ∑ c ∈ Finset.range G.nc, d c * (if a = (c : Int) then q f else 0) = q f * sideVal d a := by
    intro a ha
    unfold sideVal
    by_cases h : 0 ≤ a
    · rw [if_pos h, Finset.sum_eq_single a.toNat]
      · rw [if_pos (by omega)]; ring
      · intro c _ hne
        rw [if_neg (by omega), mul_zero]
      · intro hn
        rw [Finset.mem_range] at hn
        omega
    · rw [if_neg h, mul_zero]
      refine Finset.sum_eq_zero fun c _ => ?_
      rw [if_neg (by omega), mul_zero]
  rw [mul_sub, ← key a (by omega), ← key b (by omega), ← Finset.sum_sub_distrib]
  refine Finset.sum_congr rfl fun c hc => ?_
  ring

variable {G : GridTopo} {F : Forces} {trans fg : List Rat} {mode : Nat → WellMode} {x y d : Nat → Rat}

theorem face_energy (hv : G.Valid) (trans fg : List Rat) (hd : ∀ k, d k = x k - y k) :
    ∑ c ∈ Finset.range G.nc, d c * (G.netOutflow (intFlux G trans fg x) c - G.netOutflow (intFlux G trans fg y) c) =
      ∑ f ∈ Finset.range G.nf, if 0 ≤ G.faceCells.getD (2 * f) (-1) ∧ 0 ≤ G.faceCells.getD (2 * f + 1) (-1) then
        trans.getD f 0 * (d (G.faceCells.getD (2 * f) (-1)).toNat - d (G.faceCells.getD (2 * f + 1) (-1)).toNat) ^ 2 else 0 := by
  have h1 : ∀ c, G.netOutflow (intFlux G trans fg x) c = G.netOutflow (fun f => intFlux G trans fg x f - intFlux G trans fg y f) c + G.netOutflow (intFlux G trans fg y) c := by
    intro c
    rw [← netOutflow_add]
    exact netOutflow_congr (fun f _ => by ring) c
  simp only [h1, add_sub_cancel_right]
  rw [sum_by_parts hv]
  refine Finset.sum_congr rfl fun f hf => ?_
  unfold intFlux sideVal
  split
  · rename_i h
    rw [if_pos h.1, if_pos h.2, hd, hd]
    ring
  · rw [sub_self, zero_mul]

/-- What a boundary condition contributes. -/
theorem bc_energy (hv : G.Valid) {bc : FlowBc.Bcs} (hb : BcOk G bc) (trans : List Rat) (hd : ∀ k, d k = x k - y k) :
    ∑ c ∈ Finset.range G.nc, d c * (bcSum G bc trans (x, c) - bcSum G bc trans (y, c)) =
      -∑ i ∈ Finset.range bc.nbc, ∑ j ∈ Finset.Ico (bc.condPos.getD i 0) (bc.condPos.getD (i + 1) 0),
        if bc.type.getD i .noflow = .pressure then trans.getD (bface bc j) 0 * d (bcell G bc j) ^ 2 else 0 := by
  unfold bcSum
  have : ∀ c, d c * (∑ i ∈ Finset.range bc.nbc, ∑ j ∈ Finset.Ico (bc.condPos.getD i 0) (bc.condPos.getD (i + 1) 0), (if c = bcell G bc j then bcIn G bc trans x i j else 0) -
      ∑ i ∈ Finset.range bc.nbc, ∑ j ∈ Finset.Ico (bc.condPos.getD i 0) (bc.condPos.getD (i + 1) 0), (if c = bcell G bc j then bcIn G bc trans y i j else 0)) =
      ∑ i ∈ Finset.range bc.nbc, ∑ j ∈ Finset.Ico (bc.condPos.getD i 0) (bc.condPos.getD (i + 1) 0),
        (if c = bcell G bc j then d c * (bcIn G bc trans x i j - bcIn G bc trans y i j) else 0) := by
    intro c
    rw [← Finset.sum_sub_distrib, Finset.mul_sum]
    refine Finset.sum_congr rfl fun i _ => ?_
    rw [← Finset.sum_sub_distrib, Finset.mul_sum]
    refine Finset.sum_congr rfl fun j _ => ?_
    split <;> ring
  simp only [this]
  rw [Finset.sum_comm, ← Finset.sum_neg_distrib]
  refine Finset.sum_congr rfl fun i hi => ?_
  rw [Finset.mem_range] at hi
  rw [Finset.sum_comm, ← Finset.sum_neg_distrib]
  refine Finset.sum_congr rfl fun j hj => ?_
  rw [Finset.mem_Ico] at hj
  obtain ⟨_, _, _, _, _, _, hc, _⟩ := bcFace_ok hv hb (hb.pos.lt_total hi hj.2)
  rw [Finset.sum_ite_eq', if_pos (Finset.mem_range.2 hc)]
  unfold bcIn
  cases bc.type.getD i .noflow <;> simp [hd]
  ring

/-- What perforation `i` of well `w` contributes. -/
def perfEnergy (nc : Nat) (W : Wells.W) (mt : List Rat) (m : WellMode) (d : Nat → Rat) (w i : Nat) : Rat :=
  match m with
  | .shut => 0
  | .bhp _ => pT W mt i * d (pcell W i) ^ 2
  | .rate _ => pT W mt i * (d (nc + w) - d (pcell W i)) ^ 2

theorem well_energy {W : Wells.W} (hW : WellsOk G W) (hF : F.wells = some W) (mode : Nat → WellMode) :
    ∑ c ∈ Finset.range G.nc, d c * (wellsSum G.nc F mode (x, c) - wellsSum G.nc F mode (y, c)) =
      ∑ w ∈ Finset.range W.nw, ∑ i ∈ Finset.Ico (W.connpos.getD w 0) (W.connpos.getD (w + 1) 0),
        d (pcell W i) * (pFlux G.nc W (mtOf F) (wdpOf F) (mode w) x w i - pFlux G.nc W (mtOf F) (wdpOf F) (mode w) y w i) := by
  have : ∀ c ∈ Finset.range G.nc, d c * (wellsSum G.nc F mode (x, c) - wellsSum G.nc F mode (y, c)) =
      ∑ w ∈ Finset.range W.nw, ∑ i ∈ Finset.Ico (W.connpos.getD w 0) (W.connpos.getD (w + 1) 0),
        (if c = pcell W i then d c * (pFlux G.nc W (mtOf F) (wdpOf F) (mode w) x w i - pFlux G.nc W (mtOf F) (wdpOf F) (mode w) y w i) else 0) := by
    intro c hc
    rw [Finset.mem_range] at hc
    rw [wellsSum_cell hF mode x hc, wellsSum_cell hF mode y hc, ← Finset.sum_sub_distrib, Finset.mul_sum]
    refine Finset.sum_congr rfl fun w _ => ?_
    rw [← Finset.sum_sub_distrib, Finset.mul_sum]
    refine Finset.sum_congr rfl fun i _ => ?_
    split <;> ring
  rw [Finset.sum_congr rfl this, Finset.sum_comm]
  refine Finset.sum_congr rfl fun w hw => ?_
  rw [Finset.mem_range] at hw
  rw [Finset.sum_comm]
  refine Finset.sum_congr rfl fun i hi => ?_
  rw [Finset.mem_Ico] at hi
  rw [Finset.sum_ite_eq', if_pos (Finset.mem_range.2 (pcell_lt hW hw hi.2))]

theorem well_energy' {W : Wells.W} (mt wdp : List Rat) (m : WellMode) (hd : ∀ k, d k = x k - y k) (nc w : Nat) (s : Finset Nat)
    (hrow : ∑ i ∈ s, pRow nc W mt wdp m x w i = ∑ i ∈ s, pRow nc W mt wdp m y w i) :
    ∑ i ∈ s, d (pcell W i) * (pFlux nc W mt wdp m x w i - pFlux nc W mt wdp m y w i) = -∑ i ∈ s, perfEnergy nc W mt m d w i := by
  cases m with
  | shut => simp [pFlux, perfEnergy]
  | bhp p =>
    rw [← Finset.sum_neg_distrib]
    refine Finset.sum_congr rfl fun i _ => ?_
    simp only [pFlux, perfEnergy, hd]
    ring
  | rate q =>
    have h0 : ∑ i ∈ s, pT W mt i * (d (nc + w) - d (pcell W i)) = 0 := by
      rw [← sub_eq_zero, ← Finset.sum_sub_distrib] at hrow
      rw [← neg_eq_zero, ← Finset.sum_neg_distrib, ← hrow]
      refine Finset.sum_congr rfl fun i _ => ?_
      simp only [pRow, hd]
      ring
    have h1 : ∑ i ∈ s, d (pcell W i) * (pFlux nc W mt wdp (.rate q) x w i - pFlux nc W mt wdp (.rate q) y w i) =
        -∑ i ∈ s, perfEnergy nc W mt (.rate q) d w i + d (nc + w) * ∑ i ∈ s, pT W mt i * (d (nc + w) - d (pcell W i)) := by
      rw [Finset.mul_sum, ← Finset.sum_neg_distrib, ← Finset.sum_add_distrib]
      refine Finset.sum_congr rfl fun i _ => ?_
      simp only [pFlux, perfEnergy, hd]
      ring
    rw [h1, h0, mul_zero, add_zero]

/-- What a face contributes. -/
def faceEnergy (G : GridTopo) (trans : List Rat) (d : Nat → Rat) (f : Nat) : Rat :=
  if 0 ≤ G.faceCells.getD (2 * f) (-1) ∧ 0 ≤ G.faceCells.getD (2 * f + 1) (-1) then
    trans.getD f 0 * (d (G.faceCells.getD (2 * f) (-1)).toNat - d (G.faceCells.getD (2 * f + 1) (-1)).toNat) ^ 2 else 0

def bcEnergy (G : GridTopo) (F : Forces) (trans : List Rat) (d : Nat → Rat) : Rat :=
  match F.bc with
  | none => 0
  | some bc => ∑ i ∈ Finset.range bc.nbc, ∑ j ∈ Finset.Ico (bc.condPos.getD i 0) (bc.condPos.getD (i + 1) 0),
        if bc.type.getD i .noflow = .pressure then trans.getD (bface bc j) 0 * d (bcell G bc j) ^ 2 else 0

def wellsEnergy (nc : Nat) (F : Forces) (mode : Nat → WellMode) (d : Nat → Rat) : Rat :=
  match F.wells with
  | none => 0
  | some W => ∑ w ∈ Finset.range W.nw, ∑ i ∈ Finset.Ico (W.connpos.getD w 0) (W.connpos.getD (w + 1) 0), perfEnergy nc W (mtOf F) (mode w) d w i

theorem energy (hv : G.Valid) (hF : ForcesOk G F) (hd : ∀ k, d k = x k - y k) (κ : Nat → Rat)
    (hc : ∀ c, c < G.nc → balance G F mode trans fg (x, c) - balance G F mode trans fg (y, c) = κ c * d c)
    (hw : ∀ W w, F.wells = some W → w < W.nw → balance G F mode trans fg (x, G.nc + w) = balance G F mode trans fg (y, G.nc + w)) :
    ∑ f ∈ Finset.range G.nf, faceEnergy G trans d f + bcEnergy G F trans d + wellsEnergy G.nc F mode d + ∑ c ∈ Finset.range G.nc, κ c * d c ^ 2 = 0 := by
  have h1 : ∑ c ∈ Finset.range G.nc, κ c * d c ^ 2 = ∑ c ∈ Finset.range G.nc, d c * (balance G F mode trans fg (x, c) - balance G F mode trans fg (y, c)) := by
    refine Finset.sum_congr rfl fun c h => ?_
    rw [hc c (Finset.mem_range.1 h)]
    ring
  have h2 : ∑ c ∈ Finset.range G.nc, d c * (balance G F mode trans fg (x, c) - balance G F mode trans fg (y, c)) =
      -∑ c ∈ Finset.range G.nc, d c * (G.netOutflow (intFlux G trans fg x) c - G.netOutflow (intFlux G trans fg y) c) +
      ∑ c ∈ Finset.range G.nc, d c * (wellsSum G.nc F mode (x, c) - wellsSum G.nc F mode (y, c)) +
      ∑ c ∈ Finset.range G.nc, d c * (bcsSum G F trans (x, c) - bcsSum G F trans (y, c)) := by
    rw [← Finset.sum_neg_distrib, ← Finset.sum_add_distrib, ← Finset.sum_add_distrib]
    refine Finset.sum_congr rfl fun c h => ?_
    unfold balance
    simp only [if_pos (Finset.mem_range.1 h)]
    ring
  have h3 : ∑ c ∈ Finset.range G.nc, d c * (wellsSum G.nc F mode (x, c) - wellsSum G.nc F mode (y, c)) = -wellsEnergy G.nc F mode d := by
    cases hW : F.wells with
    | none => unfold wellsSum wellsEnergy; rw [hW]; simp
    | some W =>
      rw [well_energy (hF.wells W hW).1 hW]
      unfold wellsEnergy
      rw [hW]
      simp only
      rw [← Finset.sum_neg_distrib]
      refine Finset.sum_congr rfl fun w h => ?_
      rw [Finset.mem_range] at h
      refine well_energy' _ _ _ hd _ _ _ ?_
      have := hw W w hW h
      rw [balance_well hv hF hW mode trans fg x h, balance_well hv hF hW mode trans fg y h] at this
      linarith
  have h4 : ∑ c ∈ Finset.range G.nc, d c * (bcsSum G F trans (x, c) - bcsSum G F trans (y, c)) = -bcEnergy G F trans d := by
    unfold bcsSum bcEnergy
    cases hB : F.bc with
    | none => simp
    | some bc => exact bc_energy hv (hF.bc bc hB) trans hd
  rw [h1, h2, face_energy hv trans fg hd, h3, h4]
  unfold faceEnergy
  ring

/-- Where the energy vanishes, linked unknowns have the same difference. -/
theorem anchored_zero (hv : G.Valid) (hF : ForcesOk G F) (hm : Modes F mode) (ht : ∀ f, f < G.nf → 0 ≤ trans.getD f 0) (hn : PerfsNonneg F) (hd : ∀ k, d k = x k - y k) {κ : Nat → Rat}
    (hκ : ∀ c, c < G.nc → 0 ≤ κ c)
    (hc : ∀ c, c < G.nc → balance G F mode trans fg (x, c) - balance G F mode trans fg (y, c) = κ c * d c)
    (hw : ∀ W w, F.wells = some W → w < W.nw → balance G F mode trans fg (x, G.nc + w) = balance G F mode trans fg (y, G.nc + w)) :
    (∀ c, Anchored G F trans (fun c => c < G.nc ∧ 0 < κ c) c → d c = 0) ∧
    (∀ W w q, F.wells = some W → w < W.nw → HasMode W w (.rate q) → ∀ i c, IsPerf W w i c → 0 < perfTrans F W i → d (G.nc + w) = d c) := by
  have E := energy hv hF hd κ hc hw
  have n1 : ∀ f ∈ Finset.range G.nf, 0 ≤ faceEnergy G trans d f := by
    intro f hf
    unfold faceEnergy
    split
    · exact mul_nonneg (ht f (Finset.mem_range.1 hf)) (sq_nonneg _)
    · exact le_refl _
  have n2 : ∀ bc, F.bc = some bc → ∀ i ∈ Finset.range bc.nbc, ∀ j ∈ Finset.Ico (bc.condPos.getD i 0) (bc.condPos.getD (i + 1) 0),
      0 ≤ if bc.type.getD i .noflow = .pressure then trans.getD (bface bc j) 0 * d (bcell G bc j) ^ 2 else 0 := by
    intro bc hB i hi j hj
    rw [Finset.mem_range] at hi
    rw [Finset.mem_Ico] at hj
    obtain ⟨_, _, _, _, hlt, _⟩ := bcFace_ok hv (hF.bc bc hB) ((hF.bc bc hB).pos.lt_total hi hj.2)
    split
    · exact mul_nonneg (ht _ hlt) (sq_nonneg _)
    · exact le_refl _
  have n3 : ∀ W, F.wells = some W → ∀ w ∈ Finset.range W.nw, ∀ i ∈ Finset.Ico (W.connpos.getD w 0) (W.connpos.getD (w + 1) 0), 0 ≤ perfEnergy G.nc W (mtOf F) (mode w) d w i := by
    intro W hW w hw i hi
    rw [Finset.mem_range] at hw
    rw [Finset.mem_Ico] at hi
    have := hn W hW i ((hF.wells W hW).1.pos.lt_total hw hi.2)
    rw [perfTrans_eq] at this
    unfold perfEnergy
    cases mode w with
    | shut => exact le_refl _
    | bhp p => exact mul_nonneg this (sq_nonneg _)
    | rate q => exact mul_nonneg this (sq_nonneg _)
  have n4 : ∀ c ∈ Finset.range G.nc, 0 ≤ κ c * d c ^ 2 := fun c h => mul_nonneg (hκ c (Finset.mem_range.1 h)) (sq_nonneg _)
  have s2 : 0 ≤ bcEnergy G F trans d := by
    unfold bcEnergy
    cases hB : F.bc with
    | none => exact le_refl _
    | some bc => exact Finset.sum_nonneg fun i hi => Finset.sum_nonneg (n2 bc hB i hi)
  have s3 : 0 ≤ wellsEnergy G.nc F mode d := by
    unfold wellsEnergy
    cases hW : F.wells with
    | none => exact le_refl _
    | some W => exact Finset.sum_nonneg fun w hw => Finset.sum_nonneg (n3 W hW w hw)
  have s1 := Finset.sum_nonneg n1
  have s4 := Finset.sum_nonneg n4
  have z1 := (Finset.sum_eq_zero_iff_of_nonneg n1).1 (by linarith)
  have z4 := (Finset.sum_eq_zero_iff_of_nonneg n4).1 (by linarith)
  have z2 : bcEnergy G F trans d = 0 := by linarith
  have z3 : wellsEnergy G.nc F mode d = 0 := by linarith
  have sq : ∀ {t v : Rat}, 0 < t → t * v ^ 2 = 0 → v = 0 := by
    intro t v h e
    rcases mul_eq_zero.1 e with h' | h'
    · exact absurd h' (ne_of_gt h)
    · exact pow_eq_zero_iff (two_ne_zero) |>.1 h'
  -- perforations
  have hper : ∀ W w i c, F.wells = some W → w < W.nw → IsPerf W w i c → perfEnergy G.nc W (mtOf F) (mode w) d w i = 0 ∧ pcell W i = c := by
    rintro W w i c hW hw ⟨a, b, h1, h2, h3, h4, h5⟩
    have z3' := z3
    unfold wellsEnergy at z3'
    rw [hW] at z3'
    simp only at z3'
    have z := (Finset.sum_eq_zero_iff_of_nonneg fun w hw => Finset.sum_nonneg (n3 W hW w hw)).1 z3' w (Finset.mem_range.2 hw)
    have z' := (Finset.sum_eq_zero_iff_of_nonneg (n3 W hW w (Finset.mem_range.2 hw))).1 z i (Finset.mem_Ico.2 ⟨by rw [getD_of_getElem? h1]; exact h3, by rw [getD_of_getElem? h2]; exact h4⟩)
    refine ⟨z', ?_⟩
    unfold pcell
    rw [getD_of_getElem? h5]
    simp
  have hrate : ∀ W w q, F.wells = some W → w < W.nw → HasMode W w (.rate q) → ∀ i c, IsPerf W w i c → 0 < perfTrans F W i → d (G.nc + w) = d c := by
    intro W w q hW hw hmo i c hp hpos
    obtain ⟨z, e⟩ := hper W w i c hW hw hp
    rw [mode_unique (hm W hW w hw) hmo] at z
    simp only [perfEnergy, e] at z
    have := sq hpos z
    linarith
  refine ⟨fun c hA => ?_, hrate⟩
  induction hA with
  | given hK => exact sq hK.2 (z4 _ (Finset.mem_range.2 hK.1))
  | @cond bc v f c hB hcd hs htp =>
    obtain ⟨i, j, a, b, hi, hty, _, ha, hb, h1, h2, h3⟩ := hcd
    unfold bcEnergy at z2
    rw [hB] at z2
    simp only at z2
    have z := (Finset.sum_eq_zero_iff_of_nonneg fun i hi => Finset.sum_nonneg (n2 bc hB i hi)).1 z2 i (Finset.mem_range.2 hi)
    have hj2 : j < bc.condPos.getD (i + 1) 0 := by rw [getD_of_getElem? hb]; exact h2
    have z' := (Finset.sum_eq_zero_iff_of_nonneg (n2 bc hB i (Finset.mem_range.2 hi))).1 z j (Finset.mem_Ico.2 ⟨by rw [getD_of_getElem? ha]; exact h1, hj2⟩)
    rw [getD_of_getElem? hty, if_pos rfl] at z'
    have hbf : bface bc j = f := by unfold bface; rw [getD_of_getElem? h3]; simp
    obtain ⟨a', b', _, hs', _, _, hcl, hab⟩ := bcFace_ok hv (hF.bc bc hB) ((hF.bc bc hB).pos.lt_total hi hj2)
    have hce : bcell G bc j = c := by
      rw [hbf] at hs'
      rcases hs with hs | hs
      · obtain ⟨e1, e2⟩ := hs'.unique hs
        omega
      · obtain ⟨e1, e2⟩ := hs'.unique hs
        omega
    rw [hbf, hce] at z'
    exact sq htp z'
  | @bhp W w i c p hW hw hmo hp hpos =>
    obtain ⟨z, e⟩ := hper W w i c hW hw hp
    rw [mode_unique (hm W hW w hw) hmo] at z
    simp only [perfEnergy, e] at z
    exact sq hpos z
  | @face f a b hs htp _ ih =>
    have key : ∀ a b : Nat, G.Sides f a b → d a - d b = 0 := by
      intro a b hs
      have z := z1 f (Finset.mem_range.2 (hs.lt hv))
      unfold faceEnergy at z
      rw [getD_of_getElem? hs.1, getD_of_getElem? hs.2, if_pos (by omega), Int.toNat_natCast, Int.toNat_natCast] at z
      exact sq htp z
    rcases hs with hs | hs
    · have := key _ _ hs; linarith
    · have := key _ _ hs; linarith
  | @well W w i j a b q hW hw hmo hi hj hti htj _ ih =>
    rw [← hrate W w q hW hw hmo j b hj htj, hrate W w q hW hw hmo i a hi hti]
    exact ih

theorem _root_.Opm.IfsTpfa.Anchored.mono {K K' : Nat → Prop} (hK : ∀ c, K c → K' c) {c : Nat} (h : Anchored G F trans K c) : Anchored G F trans K' c := by
  induction h with
  | given h => exact .given (hK _ h)
  | cond h1 h2 h3 h4 => exact .cond h1 h2 h3 h4
  | bhp h1 h2 h3 h4 h5 => exact .bhp h1 h2 h3 h4 h5
  | face h1 h2 _ ih => exact .face h1 h2 ih
  | well h1 h2 h3 h4 h5 h6 h7 _ ih => exact .well h1 h2 h3 h4 h5 h6 h7 ih

/-- The balance depends on the unknowns of the system only. -/
theorem balance_congr (hv : G.Valid) (hF : ForcesOk G F) (he : ∀ k, k < G.nc ∨ (∃ W, F.wells = some W ∧ k < G.nc + W.nw) → x k = y k) (r : Nat) :
    balance G F mode trans fg (x, r) = balance G F mode trans fg (y, r) := by
  have hcell : ∀ c, c < G.nc → x c = y c := fun c hc => he c (Or.inl hc)
  have e1 : ∀ f, f < G.nf → intFlux G trans fg x f = intFlux G trans fg y f := by
    intro f hf
    obtain ⟨a, b, hs⟩ := hv.sides hf
    obtain ⟨ra, rb⟩ := hv.side_range hs
    unfold intFlux
    rw [getD_of_getElem? hs.1, getD_of_getElem? hs.2]
    split
    · rw [hcell a.toNat (by omega), hcell b.toNat (by omega)]
    · rfl
  have e2 : bcsSum G F trans (x, r) = bcsSum G F trans (y, r) := by
    unfold bcsSum
    cases hB : F.bc with
    | none => rfl
    | some bc =>
      have hbo := hF.bc bc hB
      show bcSum G bc trans (x, r) = bcSum G bc trans (y, r)
      unfold bcSum
      refine Finset.sum_congr rfl fun i hi => Finset.sum_congr rfl fun j hj => ?_
      rw [Finset.mem_range] at hi
      rw [Finset.mem_Ico] at hj
      obtain ⟨_, _, _, _, _, _, hc, _⟩ := bcFace_ok hv hbo (hbo.pos.lt_total hi hj.2)
      unfold bcIn
      simp only [hcell _ hc]
  have e3 : wellsSum G.nc F mode (x, r) = wellsSum G.nc F mode (y, r) := by
    unfold wellsSum
    cases hW : F.wells with
    | none => rfl
    | some W =>
      simp only []
      refine Finset.sum_congr rfl fun w' hw' => ?_
      rw [Finset.mem_range] at hw'
      unfold wellTerm
      congr 1
      refine Finset.sum_congr rfl fun i hi => ?_
      rw [Finset.mem_Ico] at hi
      have hc := hcell _ (pcell_lt (hF.wells W hW).1 hw' hi.2)
      have hxw : x (G.nc + w') = y (G.nc + w') := he _ (Or.inr ⟨W, hW, by omega⟩)
      cases mode w' <;> simp only [pFlux, pRow, hc, hxw]
  unfold balance
  simp only [netOutflow_congr e1, e2, e3]

/-- A matrix with trivial kernel: every right-hand side has exactly one solution. -/
theorem rowDot_solvable {A : Csr} {sa : List Rat} (h : ∀ x y : Nat → Rat, (∀ r, r < A.m → rowDot A sa x r = rowDot A sa y r) → ∀ k, k < A.m → x k = y k) (b : Nat → Rat) :
    ∃ x : Nat → Rat, ∀ r, r < A.m → rowDot A sa x r = b r := by
  let ext : (Fin A.m → Rat) → Nat → Rat := fun v k => if h : k < A.m then v ⟨k, h⟩ else 0
  let L : (Fin A.m → Rat) →ₗ[Rat] (Fin A.m → Rat) :=
    { toFun := fun v r => rowDot A sa (ext v) r
      map_add' := by
        intro u v
        funext r
        show rowDot A sa (ext (u + v)) r = rowDot A sa (ext u) r + rowDot A sa (ext v) r
        unfold rowDot
        rw [← Finset.sum_add_distrib]
        refine Finset.sum_congr rfl fun p _ => ?_
        simp only [ext]
        split <;> simp [mul_add]
      map_smul' := by
        intro a v
        funext r
        show rowDot A sa (ext (a • v)) r = a * rowDot A sa (ext v) r
        unfold rowDot
        rw [Finset.mul_sum]
        refine Finset.sum_congr rfl fun p _ => ?_
        simp only [ext]
        split
        · simp only [Pi.smul_apply, smul_eq_mul]; ring
        · simp }
  have hinj : Function.Injective L := by
    intro u v e
    funext k
    have := h (ext u) (ext v) (fun r hr => congrFun e ⟨r, hr⟩) k k.2
    simpa [ext] using this
  obtain ⟨v, hv⟩ := LinearMap.injective_iff_surjective.1 hinj (fun r => b r)
  exact ⟨ext v, fun r hr => congrFun hv ⟨r, hr⟩⟩

/-- A system whose residual is the balance, up to a constant, a shift and nonnegative diagonal terms, determines all unknowns. -/
theorem determined {A : Csr} {sa : List Rat} (hv : G.Valid) (hF : ForcesOk G F) (hm : Modes F mode) (ht : ∀ f, f < G.nf → 0 ≤ trans.getD f 0) (hn : PerfsNonneg F) {κ : Nat → Rat}
    (hκ : ∀ c, c < G.nc → 0 ≤ κ c) (hnc : G.nc ≤ A.m) (hAm : ∀ W, F.wells = some W → A.m = G.nc + W.nw) (shift : Nat → Rat)
    (hres : ∀ x y : Nat → Rat, ∀ r, r < G.nc ∨ (∃ W, F.wells = some W ∧ r < G.nc + W.nw) → rowDot A sa y r - rowDot A sa x r =
      balance G F mode trans fg (fun k => shift k + x k, r) - balance G F mode trans fg (fun k => shift k + y k, r) - if r < G.nc then κ r * (x r - y r) else 0)
    {x y : Nat → Rat} (he : ∀ r, r < A.m → rowDot A sa x r = rowDot A sa y r) :
    (∀ c, Anchored G F trans (fun c => c < G.nc ∧ 0 < κ c) c → x c = y c) ∧
    (∀ W w, F.wells = some W → w < W.nw → ∀ i c, IsPerf W w i c → 0 < perfTrans F W i → Anchored G F trans (fun c => c < G.nc ∧ 0 < κ c) c →
      x (G.nc + w) = y (G.nc + w)) := by
  have hdiff : ∀ r, r < G.nc ∨ (∃ W, F.wells = some W ∧ r < G.nc + W.nw) →
      balance G F mode trans fg (fun k => shift k + x k, r) - balance G F mode trans fg (fun k => shift k + y k, r) = if r < G.nc then κ r * (x r - y r) else 0 := by
    intro r hr
    have h1 := hres x y r hr
    rw [he r (by
      rcases hr with hr | ⟨W, hW, hr⟩
      · omega
      · have := hAm W hW; omega)] at h1
    linarith
  obtain ⟨h1, h2⟩ := anchored_zero (d := fun k => x k - y k) (x := fun k => shift k + x k) (y := fun k => shift k + y k) (fg := fg) hv hF hm ht hn (fun k => by ring) hκ
    (fun c hc => by rw [hdiff c (Or.inl hc), if_pos hc])
    (fun W w hW hw => by
      have := hdiff (G.nc + w) (Or.inr ⟨W, hW, by omega⟩)
      rw [if_neg (by omega)] at this
      linarith)
  have h1' : ∀ c, Anchored G F trans (fun c => c < G.nc ∧ 0 < κ c) c → x c = y c := fun c hA => by
    have := h1 c hA
    linarith
  refine ⟨h1', fun W w hW hw i c hp hpos hA => ?_⟩
  have hrow := hdiff (G.nc + w) (Or.inr ⟨W, hW, by omega⟩)
  rw [if_neg (by omega), balance_well hv hF hW mode trans fg _ hw, balance_well hv hF hW mode trans fg _ hw] at hrow
  have hWo := (hF.wells W hW).1
  obtain ⟨a, b, e1, e2, g1, g2, g3⟩ := hp
  have hi : i ∈ Finset.Ico (W.connpos.getD w 0) (W.connpos.getD (w + 1) 0) := Finset.mem_Ico.2 ⟨by rw [getD_of_getElem? e1]; exact g1, by rw [getD_of_getElem? e2]; exact g2⟩
  -- wells that are not rate controlled have a diagonal equation
  have diag : (∀ i, pRow G.nc W (mtOf F) (wdpOf F) (mode w) (fun k => shift k + x k) w i - pRow G.nc W (mtOf F) (wdpOf F) (mode w) (fun k => shift k + y k) w i =
      pT W (mtOf F) i * (y (G.nc + w) - x (G.nc + w))) → x (G.nc + w) = y (G.nc + w) := by
    intro hr
    have h0 : (∑ i ∈ Finset.Ico (W.connpos.getD w 0) (W.connpos.getD (w + 1) 0), pT W (mtOf F) i) * (y (G.nc + w) - x (G.nc + w)) = 0 := by
      rw [Finset.sum_mul, ← Finset.sum_congr rfl (fun i _ => hr i), Finset.sum_sub_distrib]
      linarith
    have hpos' : 0 < ∑ i ∈ Finset.Ico (W.connpos.getD w 0) (W.connpos.getD (w + 1) 0), pT W (mtOf F) i := by
      refine Finset.sum_pos' (fun j hj => ?_) ⟨i, hi, hpos⟩
      rw [Finset.mem_Ico] at hj
      exact hn W hW j (hWo.pos.lt_total hw hj.2)
    rcases mul_eq_zero.1 h0 with h | h
    · exact absurd h (ne_of_gt hpos')
    · linarith
  cases hmo : mode w with
  | rate q =>
    have hd := h2 W w q hW hw (by rw [← hmo]; exact hm W hW w hw) i c ⟨a, b, e1, e2, g1, g2, g3⟩ hpos
    have hc := h1' c hA
    linarith
  | shut => exact diag fun i => by rw [hmo]; simp only [pRow]; ring
  | bhp p => exact diag fun i => by rw [hmo]; simp only [pRow]; ring

end Opm.IfsTpfa
