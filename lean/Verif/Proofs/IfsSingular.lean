import Verif.Proofs.IfsMain
import Verif.Props.SpuExplicit
/-! # Systems without any pressure condition -/

namespace Opm.IfsTpfa
open Opm Opm.SparseSys Graph

theorem intFlux_zero_off {G : GridTopo} (hv : G.Valid) (trans fg : List Rat) (x : Nat → Rat) :
    ∑ c ∈ Finset.range G.nc, G.netOutflow (intFlux G trans fg x) c = 0 :=
  Spu.sum_netOutflow G hv _ (fun _ hf hn => intFlux_boundary hv trans fg x hf hn)

theorem rateOf_eq {W : Wells.W} {w : Nat} {m : WellMode} (h : HasMode W w m) : rateOf W w = target m := by
  obtain ⟨c, hc, hm⟩ := h
  unfold rateOf
  rw [hc]
  cases m with
  | shut => have hm : c.current < 0 := hm; simp only [target]; rw [if_neg (by omega)]
  | bhp p =>
    obtain ⟨k, h1, _, h2, h3⟩ := hm
    simp only [target, h1, Int.toNat_natCast, h2]
    rw [if_neg (by simp)]
  | rate q =>
    obtain ⟨k, h1, _, h2, h3, _⟩ := hm
    simp only [target, h1, Int.toNat_natCast, h2]
    rw [if_pos (by simp), getD_of_getElem? h3]

/-- Adding up the equations of all cells. -/
theorem sum_balance {G : GridTopo} (hv : G.Valid) {F : Forces} (hF : ForcesOk G F) {mode : Nat → WellMode} (hm : Modes F mode) (hb : ¬ SomeBhp F mode) (hp : ¬ SomePressureCond F)
    {trans fg : List Rat} {x : Nat → Rat} (hw : ∀ W w, F.wells = some W → w < W.nw → balance G F mode trans fg (x, G.nc + w) = 0) :
    ∑ c ∈ Finset.range G.nc, balance G F mode trans fg (x, c) = totalInflow G F := by
  have h1 : ∑ c ∈ Finset.range G.nc, bcsSum G F trans (x, c) = condInflow F := by
    unfold bcsSum condInflow
    cases hB : F.bc with
    | none => simp
    | some bc =>
      have h := hF.bc bc hB
      show ∑ c ∈ Finset.range G.nc, bcSum G bc trans (x, c) = _
      unfold bcSum
      rw [Finset.sum_comm]
      refine Finset.sum_congr rfl fun i hi => ?_
      rw [Finset.mem_range] at hi
      rw [Finset.sum_comm]
      have hti : bc.type[i]? = some (bc.type.getD i .noflow) := by
        have := h.type
        rw [List.getD_eq_getElem?_getD, List.getElem?_eq_getElem (by omega)]; rfl
      have hterm : ∀ j ∈ Finset.Ico (bc.condPos.getD i 0) (bc.condPos.getD (i + 1) 0),
          ∑ c ∈ Finset.range G.nc, (if c = bcell G bc j then bcIn G bc trans x i j else 0) = bcIn G bc trans x i j := by
        intro j hj
        rw [Finset.mem_Ico] at hj
        obtain ⟨_, _, _, _, _, _, hc, _⟩ := bcFace_ok hv h (h.pos.lt_total hi hj.2)
        rw [Finset.sum_ite_eq', if_pos (Finset.mem_range.2 hc)]
      rw [Finset.sum_congr rfl hterm, hti]
      cases hty : bc.type.getD i .noflow with
      | noflow =>
        rw [if_neg (by simp), Finset.sum_eq_zero]
        intro j _; unfold bcIn; rw [hty]
      | pressure => exact absurd ⟨bc, i, hB, hi, by rw [hti, hty]⟩ hp
      | fluxTotvol =>
        have hsing := h.single i _ _ hi (by rw [hti, hty]) (h.pos.get (by omega)) (h.pos.get (c := i + 1) hi)
        rw [hsing, if_pos rfl]
        have : Finset.Ico (bc.condPos.getD i 0) (bc.condPos.getD i 0 + 1) = {bc.condPos.getD i 0} := by
          ext j; simp
        rw [this, Finset.sum_singleton]
        unfold bcIn
        rw [hty]
  have h2 : ∑ c ∈ Finset.range G.nc, wellsSum G.nc F mode (x, c) = rateInflow F := by
    unfold rateInflow
    cases hW : F.wells with
    | none => simp [wellsSum, hW]
    | some W =>
      have hWo := (hF.wells W hW).1
      rw [Finset.sum_congr rfl (fun c hc => wellsSum_cell hW mode x (Finset.mem_range.1 hc)), Finset.sum_comm]
      refine Finset.sum_congr rfl fun w hw' => ?_
      rw [Finset.mem_range] at hw'
      rw [Finset.sum_comm]
      have hterm : ∀ i ∈ Finset.Ico (W.connpos.getD w 0) (W.connpos.getD (w + 1) 0),
          ∑ c ∈ Finset.range G.nc, (if c = pcell W i then pFlux G.nc W (mtOf F) (wdpOf F) (mode w) x w i else 0) = pFlux G.nc W (mtOf F) (wdpOf F) (mode w) x w i := by
        intro i hi
        rw [Finset.mem_Ico] at hi
        rw [Finset.sum_ite_eq', if_pos (Finset.mem_range.2 (pcell_lt hWo hw' hi.2))]
      rw [Finset.sum_congr rfl hterm, rateOf_eq (hm W hW w hw')]
      have hrow := hw W w hW hw'
      rw [balance_well hv hF hW mode trans fg x hw'] at hrow
      clear hterm
      cases hmo : mode w with
      | shut => exact Finset.sum_eq_zero fun i _ => rfl
      | bhp p => exact absurd ⟨W, w, hW, hw', by rw [hmo]; rfl⟩ hb
      | rate q =>
        rw [hmo] at hrow
        simp only [pRow, target, Finset.sum_neg_distrib] at hrow
        change ∑ i ∈ _, pT W (mtOf F) i * (x (G.nc + w) + (wdpOf F).getD i 0 - x (pcell W i)) = q
        linarith
  have h3 : ∀ c ∈ Finset.range G.nc, balance G F mode trans fg (x, c) =
      srcOf F c - G.netOutflow (intFlux G trans fg x) c + wellsSum G.nc F mode (x, c) + bcsSum G F trans (x, c) := by
    intro c hc
    unfold balance
    rw [if_pos (Finset.mem_range.1 hc)]
  rw [Finset.sum_congr rfl h3, Finset.sum_add_distrib, Finset.sum_add_distrib, Finset.sum_sub_distrib, intFlux_zero_off hv, h1, h2]
  unfold totalInflow
  ring

/-- The first matrix element is the element `(0, 0)`, and there is no other one. -/
theorem Pattern.first {G : GridTopo} {W : Option Wells.W} {A : Csr} (h : Pattern G W A) (hv : G.Valid) (hnc : 0 < G.nc) (hW : ∀ W', W = some W' → WellsOk G W') :
    0 < A.ia.getD 1 0 ∧ A.ja.getD 0 0 = 0 ∧ ∀ p, p < A.ia.getD 1 0 → A.ja.getD p 0 = 0 → p = 0 := by
  have hm0 : 0 < A.m := by rw [h.m]; omega
  have hrow := h.row 0 hm0
  have hsort := h.sorted 0 hm0
  have e0 : A.ia[0]? = some 0 := by have := h.mat.pos.get (c := 0) (by omega); rwa [h.mat.pos.get_zero] at this
  have e1 : A.ia[1]? = some (A.ia.getD 1 0) := h.mat.pos.get (c := 1) hm0
  have hblock : block A.ja A.ia 0 = A.ja.take (A.ia.getD 1 0) := by
    unfold block
    rw [e0, e1]
    simp
  have hcount : (block A.ja A.ia 0).count 0 = 1 := by
    rw [hrow.count_eq, List.count, List.countP_map, List.countP_filter]
    have : List.countP (fun p : Nat × Nat => (((fun x => x == 0) ∘ Prod.snd) p && decide (p.1 = 0))) (allItems G W) = List.count (0, 0) (allItems G W) := by
      rw [List.count]
      refine List.countP_congr fun p _ => ?_
      obtain ⟨a, b⟩ := p
      simp [and_comm]
    rw [this]
    unfold allItems
    rw [List.count_append]
    have hother : List.count (0, 0) (otherItems G W) = 0 := by
      rw [List.count_eq_zero]
      intro hmem
      unfold otherItems at hmem
      rw [List.mem_append] at hmem
      rcases hmem with hmem | hmem
      · obtain ⟨f, hf, hp⟩ := List.mem_flatMap.1 hmem
        exact (faceItems_lt hv (List.mem_range.1 hf) _ hp).2.2 rfl
      · cases W with
        | none => cases hmem
        | some W' =>
          obtain ⟨w, i, c, _, _, h | h⟩ := (mem_wellItems (hW W' rfl)).1 hmem
          · injection h with h1 h2; omega
          · injection h with h1 h2; omega
    rw [hother]
    have hdiag : List.count (0, 0) ((List.range (G.nc + numWells W)).map (fun i => (i, i))) = List.count 0 (List.range (G.nc + numWells W)) := by
      rw [List.count, List.countP_map, List.count]
      refine List.countP_congr fun i _ => ?_
      simp
    rw [hdiag, List.count_range, if_pos (by omega)]
  have hlen : (block A.ja A.ia 0).length ≤ A.ia.getD 1 0 := by rw [hblock]; simp
  have hget : ∀ p, p < A.ia.getD 1 0 → (block A.ja A.ia 0)[p]? = A.ja[p]? := by
    intro p hp
    rw [hblock, List.getElem?_take, if_pos hp]
  have hja : A.ia.getD 1 0 ≤ A.ja.length := by
    have := h.mat.pos.mono' (c := 1) (d := A.m) hm0 (le_refl _)
    rw [h.mat.nnz] at this
    rw [h.mat.ja]; exact this
  generalize block A.ja A.ia 0 = l at *
  cases l with
  | nil => simp at hcount
  | cons a t =>
    have hpos : 0 < A.ia.getD 1 0 := by rw [List.length_cons] at hlen; omega
    have ha : a = 0 := by
      have hmem : 0 ∈ a :: t := List.count_pos_iff.1 (by rw [hcount]; omega)
      rcases List.mem_cons.1 hmem with h | h
      · exact h.symm
      · have := (List.pairwise_cons.1 hsort).1 0 h
        omega
    subst ha
    refine ⟨hpos, ?_, ?_⟩
    · have := hget 0 hpos
      rw [List.getElem?_cons_zero] at this
      rw [List.getD_eq_getElem?_getD, ← this]; rfl
    · intro p hp hz
      by_contra hne
      obtain ⟨k, rfl⟩ : ∃ k, p = k + 1 := ⟨p - 1, by omega⟩
      have h1 := hget (k + 1) hp
      rw [List.getElem?_cons_succ] at h1
      have h2 : A.ja[k + 1]? = some 0 := by
        rw [List.getD_eq_getElem?_getD] at hz
        rw [List.getElem?_eq_getElem (by omega)] at hz ⊢
        simpa using hz
      rw [h2] at h1
      have : 0 < List.count 0 t := List.count_pos_iff.2 (List.mem_of_getElem? h1)
      rw [List.count_cons_self] at hcount
      omega

theorem Pattern.first_elm {G : GridTopo} {W : Option Wells.W} {A : Csr} (h : Pattern G W A) (hv : G.Valid) (hnc : 0 < G.nc) (hW : ∀ W', W = some W' → WellsOk G W') :
    ElmAt A 0 0 0 := by
  obtain ⟨h1, h2, h3⟩ := h.first hv hnc hW
  obtain ⟨k, hk⟩ := h.diag (i := 0) (by rw [h.m]; omega)
  have : k = 0 := h3 k hk.2.2.2.1 hk.2.2.2.2
  subst this
  exact hk

theorem rowDot_delta {G : GridTopo} {W : Option Wells.W} {A : Csr} (h : Pattern G W A) (hv : G.Valid) (hnc : 0 < G.nc) (hW : ∀ W', W = some W' → WellsOk G W') (sa : List Rat) :
    rowDot A sa (fun k => if k = 0 then 1 else 0) 0 = sa.getD 0 0 := by
  obtain ⟨h1, h2, h3⟩ := h.first hv hnc hW
  unfold rowDot
  rw [h.mat.pos.get_zero, Finset.sum_eq_single 0]
  · rw [h2]; simp
  · intro p hp hne
    rw [Finset.mem_Ico] at hp
    simp only []
    rw [if_neg (fun e => hne (h3 p hp.2 e)), mul_zero]
  · intro hn
    exact absurd (Finset.mem_Ico.2 ⟨le_refl _, h1⟩) hn

/-- The first diagonal element is positive if cell 0 has a neighbour. -/
theorem first_pos {G : GridTopo} (hv : G.Valid) {F : Forces} {mode : Nat → WellMode}
    {trans fg : List Rat} (ht : ∀ f, f < G.nf → 0 ≤ trans.getD f 0) (hn : PerfsNonneg F) {f0 : Nat} (hf0 : f0 < G.nf) (hpos : 0 < trans.getD f0 0)
    {b : Nat} (hs0 : G.Sides f0 0 b ∨ G.Sides f0 b 0) (hF : ForcesOk G F) (hnc : 0 < G.nc) :
    balance G F mode trans fg (fun k => if k = 0 then 1 else 0, 0) < balance G F mode trans fg (fun _ => 0, 0) := by
  -- faces
  have h1 : G.netOutflow (intFlux G trans fg (fun _ => 0)) 0 < G.netOutflow (intFlux G trans fg (fun k => if k = 0 then 1 else 0)) 0 := by
    unfold GridTopo.netOutflow
    have hterm : ∀ f, f < G.nf →
        ((if G.faceCells[2 * f]? = some ((0 : Nat) : Int) then intFlux G trans fg (fun k => if k = 0 then 1 else 0) f else 0) -
          (if G.faceCells[2 * f + 1]? = some ((0 : Nat) : Int) then intFlux G trans fg (fun k => if k = 0 then 1 else 0) f else 0)) -
        ((if G.faceCells[2 * f]? = some ((0 : Nat) : Int) then intFlux G trans fg (fun _ => 0) f else 0) -
          (if G.faceCells[2 * f + 1]? = some ((0 : Nat) : Int) then intFlux G trans fg (fun _ => 0) f else 0)) =
        if (G.faceCells.getD (2 * f) (-1) = 0 ∧ 0 ≤ G.faceCells.getD (2 * f + 1) (-1)) ∨ (G.faceCells.getD (2 * f + 1) (-1) = 0 ∧ 0 ≤ G.faceCells.getD (2 * f) (-1))
          then trans.getD f 0 else 0 := by
      intro f hf
      obtain ⟨a, b, hs⟩ := hv.sides hf
      obtain ⟨ra, rb⟩ := hv.side_range hs
      have hd := hv.distinct f a b hs
      simp only [hs.1, hs.2, intFlux, getD_of_getElem? hs.1, getD_of_getElem? hs.2, Option.some.injEq, Nat.cast_zero]
      by_cases ha : a = 0
      · subst ha
        have hb : b ≠ 0 := fun e => hd (by omega) e.symm
        by_cases hb0 : 0 ≤ b
        · have : ¬ b.toNat = 0 := by omega
          simp [hb, hb0, this]
          ring
        · simp [hb, hb0]
      · by_cases hb : b = 0
        · subst hb
          by_cases ha0 : 0 ≤ a
          · have : ¬ a.toNat = 0 := by omega
            simp [ha, ha0, this]
            ring
          · simp [ha, ha0]
        · simp [ha, hb]
    rw [← sub_pos, ← Finset.sum_sub_distrib, Finset.sum_congr rfl (fun f hf => hterm f (Finset.mem_range.1 hf))]
    refine Finset.sum_pos' (fun f hf => ?_) ⟨f0, Finset.mem_range.2 hf0, ?_⟩
    · split
      · exact ht f (Finset.mem_range.1 hf)
      · exact le_refl _
    · rw [if_pos]
      · exact hpos
      · rcases hs0 with h | h
        · left; rw [getD_of_getElem? h.1, getD_of_getElem? h.2]; exact ⟨rfl, by omega⟩
        · right; rw [getD_of_getElem? h.1, getD_of_getElem? h.2]; exact ⟨rfl, by omega⟩
  -- wells
  have h2 : wellsSum G.nc F mode (fun k => if k = 0 then 1 else 0, 0) ≤ wellsSum G.nc F mode (fun _ => 0, 0) := by
    cases hW : F.wells with
    | none => simp [wellsSum, hW]
    | some W =>
      have hWo := (hF.wells W hW).1
      rw [wellsSum_cell hW mode _ hnc, wellsSum_cell hW mode _ hnc]
      refine Finset.sum_le_sum fun w hw => Finset.sum_le_sum fun i hi => ?_
      rw [Finset.mem_range] at hw
      rw [Finset.mem_Ico] at hi
      have hT : 0 ≤ pT W (mtOf F) i := hn W hW i (hWo.pos.lt_total hw hi.2)
      split
      · rename_i e
        cases mode w with
        | shut => exact le_refl _
        | bhp p =>
          simp only [pFlux, ← e, if_true]
          nlinarith
        | rate q =>
          simp only [pFlux, ← e, if_true]
          rw [if_neg (by omega)]
          nlinarith
      · exact le_refl _
  -- conditions
  have h3 : bcsSum G F trans (fun k => if k = 0 then 1 else 0, 0) ≤ bcsSum G F trans (fun _ => 0, 0) := by
    unfold bcsSum
    cases hB : F.bc with
    | none => exact le_refl _
    | some bc =>
      have h := hF.bc bc hB
      show bcSum G bc trans _ ≤ bcSum G bc trans _
      unfold bcSum
      refine Finset.sum_le_sum fun i hi => Finset.sum_le_sum fun j hj => ?_
      rw [Finset.mem_range] at hi
      rw [Finset.mem_Ico] at hj
      obtain ⟨_, _, _, _, hlt, _⟩ := bcFace_ok hv h (h.pos.lt_total hi hj.2)
      have := ht _ hlt
      simp only []
      split
      · rename_i e
        unfold bcIn
        cases bc.type.getD i .noflow with
        | noflow => exact le_refl _
        | fluxTotvol => exact le_refl _
        | pressure =>
          simp only [← e, if_true]
          nlinarith
      · exact le_refl _
  unfold balance
  simp only [hnc, if_true]
  linarith

/-- What doubling the first matrix element does. -/
theorem double_first {A : Csr} (hA : MatOk A) (he : ElmAt A 0 0 0) {s : Sys} (hs : SysOk A s) (xr : XR) :
    Res A ⟨s.sa.set 0 (s.sa.getD 0 0 * 2), s.b⟩ xr = Res A s xr - if xr.2 = 0 then s.sa.getD 0 0 * xr.1 0 else 0 := by
  unfold Res
  have := rowDot_set hA hs.1 he (s.sa.getD 0 0) xr.1 xr.2
  rw [show s.sa.getD 0 0 * 2 = s.sa.getD 0 0 + s.sa.getD 0 0 by ring, this]
  ring

end Opm.IfsTpfa
