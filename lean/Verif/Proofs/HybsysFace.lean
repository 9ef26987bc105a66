import Verif.Proofs.HybsysGlobal
import Verif.Spec.Flux
import Verif.Spec.IfsTpfa
/-!
# Hybrid systems: fluxes on the faces
-/

namespace Opm.Hybsys
open Opm Opm.MiscUtil Opm.SparseSys
open Opm.IfsTpfa (getD_set BcOk HasCond)

/-- The flux of cell `c` through face `f` given its half face fluxes. -/
def hw (pconn conn : List Nat) (v : Nat → Nat → Rat) (c f : Nat) : Rat := ∑ i ∈ Finset.range (deg pconn c), if f = face pconn conn c i then v c i else 0

section
variable {G : GridTopo} (hv : G.Valid) (h0 : G.cellFacepos[0]? = some 0)
include hv h0

theorem face_get {c i : Nat} (hc : c < G.nc) (hi : i < deg G.cellFacepos c) :
    G.cellFaces[G.cellFacepos.getD c 0 + i]? = some (face G.cellFacepos G.cellFaces c i) ∧ face G.cellFacepos G.cellFaces c i < G.nf := by
  have := pos_add (hv.rowPos h0) hc
  obtain ⟨f, hf, hlt⟩ := hv.face_at hc (i := G.cellFacepos.getD c 0 + i) (by omega)
  have : face G.cellFacepos G.cellFaces c i = f := by
    unfold face
    rw [List.getD_eq_getElem?_getD, hf]
    rfl
  rw [this]
  exact ⟨hf, hlt⟩

theorem face_inj {c i j : Nat} (hc : c < G.nc) (hi : i < deg G.cellFacepos c) (hj : j < deg G.cellFacepos c)
    (h : face G.cellFacepos G.cellFaces c i = face G.cellFacepos G.cellFaces c j) : i = j := by
  have hp := hv.rowPos h0
  have h1 := pos_add hp hc
  have h2 := (face_get hv h0 hc hi).1
  have h3 := (face_get hv h0 hc hj).1
  rw [← h] at h3
  have := hv.once c _ _ _ _ _ (hp.get (by omega)) (hp.get (c := c + 1) hc) (by omega) (by omega) (by omega) (by omega) h2 h3
  omega

theorem hw_face {v : Nat → Nat → Rat} {c i : Nat} (hc : c < G.nc) (hi : i < deg G.cellFacepos c) :
    hw G.cellFacepos G.cellFaces v c (face G.cellFacepos G.cellFaces c i) = v c i := by
  unfold hw
  rw [Finset.sum_eq_single i, if_pos rfl]
  · intro j hj hji
    rw [if_neg (fun h => hji (face_inj hv h0 hc hi (Finset.mem_range.1 hj) h).symm)]
  · intro h
    exact absurd (Finset.mem_range.2 hi) h

theorem hw_zero {v : Nat → Nat → Rat} {c f : Nat} {a b : Int} (hc : c < G.nc) (hs : G.Sides f a b) (ha : a ≠ (c : Int)) (hb : b ≠ (c : Int)) :
    hw G.cellFacepos G.cellFaces v c f = 0 := by
  unfold hw
  refine Finset.sum_eq_zero (fun i hi => ?_)
  rw [if_neg]
  rintro rfl
  have hi' := Finset.mem_range.1 hi
  have h1 := pos_add (hv.rowPos h0) hc
  rcases (hv.agree c _ a b hs).1 (GridTopo.hasFace_of hv hc (i := G.cellFacepos.getD c 0 + i) (by omega) (by omega) (face_get hv h0 hc hi').1) with h | h
  · exact ha h
  · exact hb h

theorem half_of {c f : Nat} {a b : Int} (hc : c < G.nc) (hs : G.Sides f a b) (hab : a = (c : Int) ∨ b = (c : Int)) :
    ∃ i, i < deg G.cellFacepos c ∧ face G.cellFacepos G.cellFaces c i = f := by
  obtain ⟨k, k1, k2, k3⟩ := (GridTopo.hasFace_iff hv hc).1 ((hv.agree c f a b hs).2 hab)
  have h1 := pos_add (hv.rowPos h0) hc
  refine ⟨k - G.cellFacepos.getD c 0, by omega, ?_⟩
  unfold face
  rw [show G.cellFacepos.getD c 0 + (k - G.cellFacepos.getD c 0) = k by omega, List.getD_eq_getElem?_getD, k3]
  rfl

/-- A sum over the cells of what they send through an interior face has two terms. -/
theorem sum_inner {v : Nat → Nat → Rat} {f : Nat} {a b : Nat} (hs : G.Sides f a b) (φ : Nat → Rat) :
    ∑ c ∈ Finset.range G.nc, φ c * hw G.cellFacepos G.cellFaces v c f = φ a * hw G.cellFacepos G.cellFaces v a f + φ b * hw G.cellFacepos G.cellFaces v b f := by
  have hr := GridTopo.Valid.side_range hv hs
  have hab := hv.distinct f _ _ hs (by omega)
  refine Finset.sum_eq_add a b (by omega) (fun c hc hne => ?_) (fun h => ?_) (fun h => ?_)
  · rw [hw_zero hv h0 (Finset.mem_range.1 hc) hs (by omega) (by omega), mul_zero]
  · exact absurd (Finset.mem_range.2 (by omega)) h
  · exact absurd (Finset.mem_range.2 (by omega)) h

theorem sum_outer {v : Nat → Nat → Rat} {f : Nat} {a b : Int} {c : Nat} (hs : G.Sides f a b) (hab : (a = c ∧ b = -1) ∨ (a = -1 ∧ b = c)) (φ : Nat → Rat) :
    ∑ c ∈ Finset.range G.nc, φ c * hw G.cellFacepos G.cellFaces v c f = φ c * hw G.cellFacepos G.cellFaces v c f := by
  have hr := GridTopo.Valid.side_range hv hs
  refine Finset.sum_eq_single c (fun d hd hne => ?_) (fun h => ?_)
  · rw [hw_zero hv h0 (Finset.mem_range.1 hd) hs (by omega) (by omega), mul_zero]
  · exact absurd (Finset.mem_range.2 (by omega)) h

theorem faceFlux_ok (hsome : ∀ f, ¬G.Sides f (-1) (-1)) {cflux : List Rat} (hc : G.cellFacepos.getD G.nc 0 ≤ cflux.length) :
    ∃ fl, faceFlux G.nc G.nf G.cellFacepos G.cellFaces G.faceCells cflux = .ok fl ∧ fl.length = G.nf ∧
      (∀ f (a b : Nat), G.Sides f a b → fl.getD f 0 =
        (hw G.cellFacepos G.cellFaces (hf G.cellFacepos cflux) a f - hw G.cellFacepos G.cellFaces (hf G.cellFacepos cflux) b f) / 2) ∧
      (∀ f (a : Nat), G.Sides f a (-1) → fl.getD f 0 = hw G.cellFacepos G.cellFaces (hf G.cellFacepos cflux) a f) ∧
      ∀ f (b : Nat), G.Sides f (-1) b → fl.getD f 0 = -hw G.cellFacepos G.cellFaces (hf G.cellFacepos cflux) b f := by
  have hp := hv.rowPos h0
  unfold faceFlux
  obtain ⟨a1, e1, l1, v1⟩ := rowLoop_sum hp (s := List.replicate G.nf (0 : Rat)) (f := fun c i a => do
    let f ← rd G.cellFaces i
    let c1 ← rd G.faceCells (2 * f)
    let v ← rd cflux i
    addAt a f ((2 * (if c1 = (c : Int) then 1 else 0) - 1) * v)) (fun a => a.length = G.nf) (fun a f => a.getD f 0)
    (fun c i f => (if G.faceCells[2 * f]? = some (c : Int) then 1 else -1) * if f = G.cellFaces.getD i 0 then cflux.getD i 0 else 0) (by simp) (by
    intro c i t hc' hi hi' ht
    obtain ⟨f, hf, hlt⟩ := hv.face_at hc' hi'
    obtain ⟨a, b, hs⟩ := hv.sides hlt
    have hil := hp.lt_total hc' hi'
    rw [rd_of_getElem? hf, bind_ok, rd_of_getElem? hs.1, bind_ok, rdD (by omega), bind_ok, addAt_ok (by omega)]
    have hfd : G.cellFaces.getD i 0 = f := by rw [List.getD_eq_getElem?_getD, hf]; rfl
    refine ⟨_, rfl, by simpa using ht, fun f' => ?_⟩
    rw [getD_addAt (by omega), hfd]
    congr 1
    by_cases hff : f' = f
    · subst hff
      rw [if_pos rfl, if_pos rfl, hs.1]
      simp only [Option.some.injEq]
      split <;> ring
    · rw [if_neg hff, if_neg hff, mul_zero])
  have v1' : ∀ f, a1.getD f 0 = ∑ c ∈ Finset.range G.nc, (if G.faceCells[2 * f]? = some (c : Int) then 1 else -1) * hw G.cellFacepos G.cellFaces (hf G.cellFacepos cflux) c f := by
    intro f
    rw [v1 f]
    have hz : (List.replicate G.nf (0 : Rat)).getD f 0 = 0 := by
      rw [List.getD_eq_getElem?_getD, List.getElem?_replicate]
      split <;> rfl
    rw [hz, zero_add]
    refine Finset.sum_congr rfl (fun c _ => ?_)
    rw [Finset.sum_Ico_eq_sum_range, ← Finset.mul_sum]
    rfl
  obtain ⟨a2, e2, u2⟩ := loop_upd (n := G.nf) (a := a1) (f := fun f a => do
    let c1 ← rd G.faceCells (2 * f)
    let c2 ← rd G.faceCells (2 * f + 1)
    let x ← rd a f
    let y ← fdiv x ((if 0 ≤ c1 then 1 else 0) + (if 0 ≤ c2 then 1 else 0))
    wr a f y) 0 (fun f => a1.getD f 0 / ((if 0 ≤ G.faceCells.getD (2 * f) 0 then 1 else 0) + (if 0 ≤ G.faceCells.getD (2 * f + 1) 0 then 1 else 0))) (by omega) (by
    intro f t hf ht hg
    obtain ⟨a, b, hs⟩ := hv.sides hf
    have g1 : G.faceCells.getD (2 * f) 0 = a := by rw [List.getD_eq_getElem?_getD, hs.1]; rfl
    have g2 : G.faceCells.getD (2 * f + 1) 0 = b := by rw [List.getD_eq_getElem?_getD, hs.2]; rfl
    have hr := GridTopo.Valid.side_range hv hs
    have hne := hsome f
    rw [Nat.zero_add] at hg
    rw [rd_of_getElem? hs.1, bind_ok, rd_of_getElem? hs.2, bind_ok, rdD (by omega), bind_ok, fdiv_ok, bind_ok, Nat.zero_add, g1, g2, hg]
    rcases hr.1 with rfl | ⟨ha, _⟩
    · rcases hr.2 with rfl | ⟨hb, _⟩
      · exact absurd hs hne
      · rw [if_pos hb]; norm_num
    · rw [if_pos ha]
      split <;> norm_num)
  have u2' : ∀ f, f < G.nf → ∀ a b, G.Sides f a b → a2.getD f 0 = a1.getD f 0 / ((if 0 ≤ a then 1 else 0) + (if 0 ≤ b then 1 else 0)) := by
    intro f hf a b hs
    have := u2.2.1 f hf
    rw [Nat.zero_add] at this
    rw [this]
    simp only [List.getD_eq_getElem?_getD, hs.1, hs.2, Option.getD_some]
  refine ⟨a2, by rw [e1, bind_ok, e2], by rw [u2.1, l1], fun f a b hs => ?_, fun f a hs => ?_, fun f b hs => ?_⟩
  · have hab := hv.distinct f _ _ hs (by omega)
    rw [u2' f (GridTopo.Sides.lt hv hs) _ _ hs, v1', sum_inner hv h0 hs, hs.1, if_pos rfl, if_neg (by simpa using hab), if_pos (by omega), if_pos (by omega)]
    ring
  · rw [u2' f (GridTopo.Sides.lt hv hs) _ _ hs, v1', sum_outer hv h0 hs (Or.inl ⟨rfl, rfl⟩), hs.1, if_pos rfl, if_pos (by omega), if_neg (by omega)]
    ring
  · rw [u2' f (GridTopo.Sides.lt hv hs) _ _ hs, v1', sum_outer hv h0 hs (Or.inr ⟨rfl, rfl⟩), hs.1, if_neg (by simp), if_neg (by omega), if_pos (by omega)]
    ring

/-- If the half face fluxes of every interior face cancel, what leaves a cell through its faces is the sum of its half face fluxes. -/
theorem netOutflow_eq {v : Nat → Nat → Rat} {q : Nat → Rat} (hsome : ∀ f, ¬G.Sides f (-1) (-1))
    (hin : ∀ f (a b : Nat), G.Sides f a b → q f = (hw G.cellFacepos G.cellFaces v a f - hw G.cellFacepos G.cellFaces v b f) / 2)
    (hout : ∀ f (a : Nat), G.Sides f a (-1) → q f = hw G.cellFacepos G.cellFaces v a f)
    (hout' : ∀ f (b : Nat), G.Sides f (-1) b → q f = -hw G.cellFacepos G.cellFaces v b f)
    (hcont : ∀ f (a b : Nat), G.Sides f a b → hw G.cellFacepos G.cellFaces v a f + hw G.cellFacepos G.cellFaces v b f = 0)
    {c : Nat} (hc : c < G.nc) : G.netOutflow q c = ∑ i ∈ Finset.range (deg G.cellFacepos c), v c i := by
  have hp := hv.rowPos h0
  have e := GridTopo.sum_row hv hc (fun f => (if G.faceCells[2 * f]? = some (c : Int) then q f else 0) - (if G.faceCells[2 * f + 1]? = some (c : Int) then q f else 0))
  have e2 : G.netOutflow q c = ∑ f ∈ (Finset.range G.nf).filter (fun f => G.faceCells[2 * f]? = some (c : Int) ∨ G.faceCells[2 * f + 1]? = some (c : Int)),
      ((if G.faceCells[2 * f]? = some (c : Int) then q f else 0) - (if G.faceCells[2 * f + 1]? = some (c : Int) then q f else 0)) := by
    unfold GridTopo.netOutflow
    rw [Finset.sum_filter]
    refine Finset.sum_congr rfl (fun f _ => ?_)
    by_cases h : G.faceCells[2 * f]? = some (c : Int) ∨ G.faceCells[2 * f + 1]? = some (c : Int)
    · rw [if_pos h]
    · rw [if_neg h]
      rw [not_or] at h
      rw [if_neg h.1, if_neg h.2, sub_zero]
  rw [e2, ← e, Finset.sum_Ico_eq_sum_range]
  refine Finset.sum_congr rfl (fun i hi => ?_)
  have hi' : i < deg G.cellFacepos c := Finset.mem_range.1 hi
  obtain ⟨g1, g2⟩ := face_get hv h0 hc hi'
  have hwf := hw_face (v := v) hv h0 hc hi'
  have hfe : G.cellFaces.getD (G.cellFacepos.getD c 0 + i) 0 = face G.cellFacepos G.cellFaces c i := rfl
  rw [hfe]
  generalize hf : face G.cellFacepos G.cellFaces c i = f at *
  obtain ⟨a, b, hs⟩ := hv.sides g2
  have hr := GridTopo.Valid.side_range hv hs
  have h1 := pos_add hp hc
  rw [hs.1, hs.2]
  simp only [Option.some.injEq]
  rcases (hv.agree c f a b hs).1 (GridTopo.hasFace_of hv hc (i := G.cellFacepos.getD c 0 + i) (by omega) (by omega) g1) with h | h
  · subst h
    have hne := hv.distinct f _ _ hs (by omega)
    rw [if_pos rfl, if_neg (Ne.symm hne), sub_zero, ← hwf]
    rcases hr.2 with rfl | ⟨hb, _⟩
    · exact hout f c hs
    · obtain ⟨b, rfl⟩ := Int.eq_ofNat_of_zero_le hb
      have := hcont f c b hs
      rw [hin f c b hs]
      linarith
  · subst h
    have hne : a ≠ (c : Int) := by
      intro h
      have := hv.distinct f _ _ hs (by omega)
      exact this h
    rw [if_neg hne, if_pos rfl, zero_sub, ← hwf]
    rcases hr.1 with rfl | ⟨ha, _⟩
    · rw [hout' f c hs, neg_neg]
    · obtain ⟨a, rfl⟩ := Int.eq_ofNat_of_zero_le ha
      have := hcont f a c hs
      rw [hin f a c hs]
      linarith

end

/-- The conditions found for the faces are those set. -/
theorem mapBdry_ok {G : GridTopo} {bc : Option FlowBc.Bcs} (hv : G.Valid) (hb : ∀ b, bc = some b → BcOk G b) :
    ∃ m, mapBdry G.nf bc = .ok m ∧ m.length = G.nf ∧ ∀ f, f < G.nf →
      (m.getD f (-1) = -1 ∧ ∀ b, bc = some b → ∀ j, j < b.condPos.getD b.nbc 0 → b.face[j]? ≠ some (f : Int)) ∨
      ∃ (b : FlowBc.Bcs) (i j : Nat), bc = some b ∧ m.getD f (-1) = (i : Int) ∧ i < b.nbc ∧ b.condPos.getD i 0 ≤ j ∧ j < b.condPos.getD (i + 1) 0 ∧ b.face[j]? = some (f : Int) := by
  have hrep : ∀ f, (List.replicate G.nf (-1 : Int)).getD f (-1) = -1 := by
    intro f
    rw [List.getD_eq_getElem?_getD, List.getElem?_replicate]
    split <;> rfl
  cases bc with
  | none => exact ⟨_, rfl, by simp, fun f hf => Or.inl ⟨hrep f, by simp⟩⟩
  | some b =>
    have hB := hb b rfl
    unfold mapBdry
    simp only [Option.some.injEq, exists_eq_left', forall_eq']
    rw [rd_of_getElem? hB.pos.zero, bind_ok, check_ok (by rfl), bind_ok]
    obtain ⟨m, e, h1, h2⟩ := rowLoop_inv hB.pos (s := List.replicate G.nf (-1 : Int)) (f := fun i j a => do
      let f ← rd b.face j
      check (decide (0 ≤ f ∧ f < (G.nf : Int)))
      wrI a f (i : Int))
      (fun _ j (a : List Int) => a.length = G.nf ∧ ∀ f, f < G.nf →
        (a.getD f (-1) = -1 ∧ ∀ j', j' < j → b.face[j']? ≠ some (f : Int)) ∨
        ∃ (i j' : Nat), a.getD f (-1) = (i : Int) ∧ i < b.nbc ∧ b.condPos.getD i 0 ≤ j' ∧ j' < b.condPos.getD (i + 1) 0 ∧ b.face[j']? = some (f : Int))
      ⟨by simp, fun f hf => Or.inl ⟨hrep f, fun j' hj' => absurd hj' (Nat.not_lt_zero _)⟩⟩ (by
      rintro i j a hi hj hj' ⟨h1, h2⟩
      obtain ⟨f, c, hf, hs⟩ := hB.face j (hB.pos.lt_total hi hj')
      have hlt : f < G.nf := by
        rcases hs with hs | hs
        · exact GridTopo.Sides.lt hv hs
        · exact GridTopo.Sides.lt hv hs
      rw [rd_of_getElem? hf, bind_ok, check_ok (b := decide (0 ≤ (f : Int) ∧ (f : Int) < (G.nf : Int))) (by simp; omega), bind_ok, wrI_natCast, wr_ok (by omega)]
      refine ⟨_, rfl, by simpa using h1, fun f' hf' => ?_⟩
      have hset : (a.set f (i : Int)).getD f' (-1) = if f' = f then (i : Int) else a.getD f' (-1) := by
        simp only [List.getD_eq_getElem?_getD, List.getElem?_set]
        by_cases h : f = f'
        · subst h; simp [h1, hf']
        · rw [if_neg h, if_neg (Ne.symm h)]
      rw [hset]
      by_cases hff : f' = f
      · subst hff
        exact Or.inr ⟨i, j, if_pos rfl, hi, hj, hj', hf⟩
      · rw [if_neg hff]
        rcases h2 f' hf' with ⟨q1, q2⟩ | q
        · refine Or.inl ⟨q1, fun j' hlt' => ?_⟩
          rcases Nat.lt_or_ge j' j with h | h
          · exact q2 j' h
          · obtain rfl : j' = j := by omega
            rw [hf]
            simp
            omega
        · exact Or.inr q) (fun c t _ h => h)
    refine ⟨m, e, h1, fun f hf => ?_⟩
    rcases h2 f hf with h | ⟨i, j, h⟩
    · exact Or.inl h
    · exact Or.inr ⟨b, i, j, rfl, h⟩

end Opm.Hybsys
