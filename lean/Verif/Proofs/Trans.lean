import Verif.Model.Trans
import Verif.Spec.Trans
import Verif.Proofs.GridSums
import Mathlib.Tactic.Linarith
import Mathlib.Tactic.FieldSimp
import Mathlib.Tactic.Ring
/-! # Proofs about transmissibilities -/

namespace Opm.Trans
open Opm Graph

theorem zeroFaces_ok {nf : Nat} {t : List Rat} (h : nf ≤ t.length) :
    ∃ t', zeroFaces nf t = .ok t' ∧ t'.length = t.length ∧ ∀ f, f < nf → t'.getD f 0 = 0 := by
  obtain ⟨t', e, h1, h2⟩ := loop_inv (n := nf) (s := t) (f := fun f t => wr t f 0)
    (fun k t' => t'.length = t.length ∧ ∀ f, f < k → t'.getD f 0 = 0) ⟨rfl, by omega⟩
    (by
      rintro k t' hk ⟨h1, h2⟩
      refine ⟨_, wr_ok (by omega), by simp [h1], fun f hf => ?_⟩
      by_cases hfk : f = k
      · subst hfk; simp [List.getD_eq_getElem?_getD, h1, show f < t.length by omega]
      · have := h2 f (by omega)
        rw [List.getD_eq_getElem?_getD] at this ⊢
        rw [List.getElem?_set_ne (Ne.symm hfk)]
        exact this)
  exact ⟨t', e, h1, h2⟩

theorem invertFaces_ok {nf : Nat} {t : List Rat} (h : nf ≤ t.length) (hp : ∀ f, f < nf → t.getD f 0 ≠ 0) :
    ∃ t', invertFaces nf t = .ok t' ∧ t'.length = t.length ∧ ∀ f, f < nf → t'[f]? = some (1 / t.getD f 0) := by
  obtain ⟨t', e, h1, h2, h3⟩ := loop_inv (n := nf) (s := t) (f := fun f t => do
      let x ← rd t f
      let y ← fdiv 1 x
      wr t f y)
    (fun k t' => t'.length = t.length ∧ (∀ f, f < k → t'[f]? = some (1 / t.getD f 0)) ∧ ∀ f, k ≤ f → t'[f]? = t[f]?)
    ⟨rfl, by omega, fun _ _ => rfl⟩
    (by
      rintro k t' hk ⟨h1, h2, h3⟩
      have hk' : t'[k]? = some (t.getD k 0) := by rw [h3 k (le_refl _)]; exact getElem?_getD (by omega)
      refine ⟨t'.set k (1 / t.getD k 0), ?_, by simp [h1], fun f hf => ?_, fun f hf => ?_⟩
      · rw [rd_of_getElem? hk', bind_ok, fdiv_ok (hp k hk), bind_ok, wr_ok (by omega)]
      · by_cases hfk : f = k
        · subst hfk; rw [List.getElem?_set_self (by omega)]
        · rw [List.getElem?_set_ne (Ne.symm hfk)]; exact h2 f (by omega)
      · rw [List.getElem?_set_ne (by omega)]; exact h3 f (by omega))
  exact ⟨t', e, h1, h2⟩

/-- Sum of the inverse half-transmissibilities of face `f`. -/
def resistance (g : GridTopo) (w : Nat → Nat → Rat) (f : Nat) : Rat :=
  ∑ c ∈ Finset.range g.nc, ∑ i ∈ Finset.Ico (g.cellFacepos.getD c 0) (g.cellFacepos.getD (c + 1) 0), if f = g.cellFaces.getD i 0 then 1 / w c i else 0

theorem halfFace_iff {g : GridTopo} (hv : g.Valid) {c f i : Nat} : g.HalfFace c f i ↔
    c < g.nc ∧ g.cellFacepos.getD c 0 ≤ i ∧ i < g.cellFacepos.getD (c + 1) 0 ∧ g.cellFaces[i]? = some f := by
  constructor
  · rintro ⟨a, b, ha, hb, h1, h2, h3⟩
    have hc : c + 1 < g.cellFacepos.length := (List.getElem?_eq_some_iff.1 hb).1
    rw [hv.csr.len] at hc
    rw [ia_get hv.csr (by omega)] at ha
    rw [ia_get hv.csr (by omega)] at hb
    cases ha; cases hb
    exact ⟨by omega, h1, h2, h3⟩
  · rintro ⟨hc, h1, h2, h3⟩
    exact ⟨_, _, ia_get hv.csr (by omega), ia_get hv.csr (i := c + 1) hc, h1, h2, h3⟩

theorem halfFace_unique {g : GridTopo} (hv : g.Valid) {c f i i' : Nat} (h : g.HalfFace c f i) (h' : g.HalfFace c f i') : i = i' := by
  obtain ⟨a, b, ha, hb, h1, h2, h3⟩ := h
  obtain ⟨a', b', ha', hb', h1', h2', h3'⟩ := h'
  rw [ha] at ha'; rw [hb] at hb'
  cases ha'; cases hb'
  exact hv.once c a b i i' f ha hb h1 h2 h1' h2' h3 h3'

theorem row_sum {g : GridTopo} (hv : g.Valid) (w : Nat → Nat → Rat) {c f : Nat} (hc : c < g.nc) :
    (∀ i, g.HalfFace c f i →
      ∑ i ∈ Finset.Ico (g.cellFacepos.getD c 0) (g.cellFacepos.getD (c + 1) 0), (if f = g.cellFaces.getD i 0 then 1 / w c i else 0) = 1 / w c i) ∧
    (¬ g.HasFace c f →
      ∑ i ∈ Finset.Ico (g.cellFacepos.getD c 0) (g.cellFacepos.getD (c + 1) 0), (if f = g.cellFaces.getD i 0 then 1 / w c i else 0) = 0) := by
  have hget : ∀ i, g.cellFacepos.getD c 0 ≤ i → i < g.cellFacepos.getD (c + 1) 0 → f = g.cellFaces.getD i 0 → g.HalfFace c f i := by
    intro i h1 h2 e
    obtain ⟨f', hf', _⟩ := hv.face_at hc h2
    refine (halfFace_iff hv).2 ⟨hc, h1, h2, ?_⟩
    rw [hf', e]
    simp [List.getD_eq_getElem?_getD, hf']
  constructor
  · intro i hi
    obtain ⟨_, h1, h2, h3⟩ := (halfFace_iff hv).1 hi
    rw [Finset.sum_eq_single_of_mem i (Finset.mem_Ico.2 ⟨h1, h2⟩)]
    · rw [if_pos (by simp [List.getD_eq_getElem?_getD, h3])]
    · intro j hj hne
      rw [Finset.mem_Ico] at hj
      rw [if_neg]
      intro e
      exact hne (halfFace_unique hv (hget j hj.1 hj.2 e) hi)
  · intro hno
    refine Finset.sum_eq_zero fun i hi => ?_
    rw [Finset.mem_Ico] at hi
    rw [if_neg]
    intro e
    obtain ⟨_, h1, h2, h3⟩ := (halfFace_iff hv).1 (hget i hi.1 hi.2 e)
    exact hno (GridTopo.hasFace_of hv hc h1 h2 h3)

theorem exists_half {g : GridTopo} (hv : g.Valid) {f c : Nat} {a b : Int} (hs : g.Sides f a b) (h : a = c ∨ b = c) : ∃ i, g.HalfFace c f i :=
  (hv.agree c f a b hs).2 h |>.elim fun a h => h.elim fun b h => h.elim fun e h => ⟨e, a, b, h.1, h.2.1, h.2.2.1, h.2.2.2.1, h.2.2.2.2⟩

theorem half_lt {g : GridTopo} (hv : g.Valid) {c f i : Nat} (h : g.HalfFace c f i) : c < g.nc := ((halfFace_iff hv).1 h).1

/-- Resistances: two sides. -/
theorem resistance_two {g : GridTopo} (hv : g.Valid) (w : Nat → Nat → Rat) {f c1 c2 i1 i2 : Nat} (hs : g.Sides f c1 c2) (h1 : g.HalfFace c1 f i1)
    (h2 : g.HalfFace c2 f i2) : resistance g w f = 1 / w c1 i1 + 1 / w c2 i2 := by
  have hne : c1 ≠ c2 := by
    intro e
    exact hv.distinct f _ _ hs (by omega) (by rw [e])
  unfold resistance
  have hsub : ({c1, c2} : Finset Nat) ⊆ Finset.range g.nc := by
    intro c hc
    rw [Finset.mem_insert, Finset.mem_singleton] at hc
    rcases hc with rfl | rfl
    · exact Finset.mem_range.2 (half_lt hv h1)
    · exact Finset.mem_range.2 (half_lt hv h2)
  rw [← Finset.sum_subset hsub, Finset.sum_pair hne, (row_sum hv w (half_lt hv h1)).1 i1 h1, (row_sum hv w (half_lt hv h2)).1 i2 h2]
  intro c hc hn
  refine (row_sum hv w (Finset.mem_range.1 hc)).2 fun hf => ?_
  rw [Finset.mem_insert, Finset.mem_singleton] at hn
  rcases (hv.agree c f _ _ hs).1 hf with e | e
  · exact hn (Or.inl (by omega))
  · exact hn (Or.inr (by omega))

/-- Resistances: one side. -/
theorem resistance_one {g : GridTopo} (hv : g.Valid) (w : Nat → Nat → Rat) {f c i : Nat} (hs : g.Sides f c (-1) ∨ g.Sides f (-1) c)
    (h : g.HalfFace c f i) : resistance g w f = 1 / w c i := by
  unfold resistance
  rw [Finset.sum_eq_single_of_mem c (Finset.mem_range.2 (half_lt hv h)), (row_sum hv w (half_lt hv h)).1 i h]
  intro d hd hne
  refine (row_sum hv w (Finset.mem_range.1 hd)).2 fun hf => ?_
  rcases hs with hs | hs
  · rcases (hv.agree d f _ _ hs).1 hf with e | e <;> omega
  · rcases (hv.agree d f _ _ hs).1 hf with e | e <;> omega

theorem side_cases {g : GridTopo} (hv : g.Valid) {f : Nat} {a b : Int} (hs : g.Sides f a b) (hne : ¬ (a = -1 ∧ b = -1)) :
    (∃ c1 c2 : Nat, g.Sides f c1 c2) ∨ ∃ c : Nat, g.Sides f c (-1) ∨ g.Sides f (-1) c := by
  obtain ⟨h1, h2⟩ := hv.side_range hs
  rcases h1 with rfl | ⟨h1, _⟩ <;> rcases h2 with rfl | ⟨h2, _⟩
  · exact absurd ⟨rfl, rfl⟩ hne
  · exact Or.inr ⟨b.toNat, Or.inr (by rw [Int.toNat_of_nonneg h2]; exact hs)⟩
  · exact Or.inr ⟨a.toNat, Or.inl (by rw [Int.toNat_of_nonneg h1]; exact hs)⟩
  · exact Or.inl ⟨a.toNat, b.toNat, by rw [Int.toNat_of_nonneg h1, Int.toNat_of_nonneg h2]; exact hs⟩

theorem resistance_pos {g : GridTopo} (hv : g.Valid) {w : Nat → Nat → Rat}
    (hw : ∀ c i, c < g.nc → g.cellFacepos.getD c 0 ≤ i → i < g.cellFacepos.getD (c + 1) 0 → 0 < w c i)
    (hside : ∀ f, f < g.nf → ¬ g.Sides f (-1) (-1)) {f : Nat} (hf : f < g.nf) : 0 < resistance g w f := by
  obtain ⟨a, b, hs⟩ := hv.sides hf
  have hpos : ∀ {c i}, g.HalfFace c f i → 0 < 1 / w c i := by
    intro c i h
    obtain ⟨h1, h2, h3, _⟩ := (halfFace_iff hv).1 h
    exact one_div_pos.2 (hw c i h1 h2 h3)
  rcases side_cases hv hs (by rintro ⟨rfl, rfl⟩; exact hside f hf hs) with ⟨c1, c2, hs⟩ | ⟨c, hs⟩
  · obtain ⟨i1, h1⟩ := exists_half hv hs (Or.inl rfl)
    obtain ⟨i2, h2⟩ := exists_half hv hs (Or.inr rfl)
    rw [resistance_two hv w hs h1 h2]
    linarith [hpos h1, hpos h2]
  · have : ∃ i, g.HalfFace c f i := by
      rcases hs with hs | hs
      · exact exists_half hv hs (Or.inl rfl)
      · exact exists_half hv hs (Or.inr rfl)
    obtain ⟨i, h⟩ := this
    rw [resistance_one hv w hs h]
    exact hpos h

theorem isTrans_of {g : GridTopo} (hv : g.Valid) {w : Nat → Nat → Rat}
    (hw : ∀ c i, c < g.nc → g.cellFacepos.getD c 0 ≤ i → i < g.cellFacepos.getD (c + 1) 0 → 0 < w c i) (f : Nat) :
    g.IsTrans w f (1 / resistance g w f) := by
  constructor
  · intro c1 c2 i1 i2 hs h1 h2
    rw [resistance_two hv w hs h1 h2]
    obtain ⟨a1, a2, a3, _⟩ := (halfFace_iff hv).1 h1
    obtain ⟨b1, b2, b3, _⟩ := (halfFace_iff hv).1 h2
    have p1 := hw c1 i1 a1 a2 a3
    have p2 := hw c2 i2 b1 b2 b3
    unfold harmonic
    field_simp
    ring
  · intro c i hs h
    rw [resistance_one hv w hs h, one_div_one_div]

/-- The common part of the two routines. -/
theorem accumulate_ok {g : GridTopo} (hv : g.Valid) (h0 : g.cellFacepos[0]? = some 0) {w : Nat → Nat → Rat} {y : Nat → Nat → M Rat}
    (hw : ∀ c i, c < g.nc → g.cellFacepos.getD c 0 ≤ i → i < g.cellFacepos.getD (c + 1) 0 → 0 < w c i)
    (hy : ∀ c i, c < g.nc → g.cellFacepos.getD c 0 ≤ i → i < g.cellFacepos.getD (c + 1) 0 → y c i = .ok (1 / w c i))
    (hside : ∀ f, f < g.nf → ¬ g.Sides f (-1) (-1)) {trans : List Rat} (ht : g.nf ≤ trans.length)
    {body : Nat → Nat → List Rat → M (List Rat)} (hbody : ∀ c i t f, g.cellFaces[i]? = some f → body c i t = (do
      let v ← y c i
      addAt t f v)) :
    ∃ t, (do
      let t ← zeroFaces g.nf trans
      let t ← rowLoop g.nc g.cellFacepos body t
      invertFaces g.nf t) = .ok t ∧ t.length = trans.length ∧ ∀ f, f < g.nf → ∃ v, t[f]? = some v ∧ 0 < v ∧ g.IsTrans w f v := by
  obtain ⟨t0, e0, l0, z0⟩ := zeroFaces_ok ht
  obtain ⟨t1, e1, l1, s1⟩ := rowLoop_sum (hv.rowPos h0) (s := t0) (f := body) (fun t => t.length = trans.length) (fun t (f : Nat) => t.getD f 0)
    (fun c i f => if f = g.cellFaces.getD i 0 then 1 / w c i else 0) l0
    (by
      intro c i t hc h1 h2 hl
      obtain ⟨f, hf, hlt⟩ := hv.face_at hc h2
      have e : g.cellFaces.getD i 0 = f := by simp [List.getD_eq_getElem?_getD, hf]
      refine ⟨t.set f (t.getD f 0 + 1 / w c i), ?_, by simpa using hl, fun r => ?_⟩
      · rw [hbody c i t f hf, hy c i hc h1 h2, bind_ok, addAt_ok (by omega)]
      · rw [getD_addAt (by omega), e])
  have hr : ∀ f, f < g.nf → t1.getD f 0 = resistance g w f := by
    intro f hf
    rw [s1, z0 f hf, zero_add]
    rfl
  obtain ⟨t2, e2, l2, s2⟩ := invertFaces_ok (nf := g.nf) (t := t1) (by omega)
    (fun f hf => by rw [hr f hf]; exact (resistance_pos hv hw hside hf).ne')
  refine ⟨t2, by rw [e0, bind_ok, e1, bind_ok, e2], by omega, fun f hf => ⟨_, s2 f hf, ?_, ?_⟩⟩
  · rw [hr f hf]; exact one_div_pos.2 (resistance_pos hv hw hside hf)
  · rw [hr f hf]; exact isTrans_of hv hw f

theorem sum_loop {n : Nat} {f : Nat → Rat → M Rat} (g : Nat → Rat) (h : ∀ i a, i < n → f i a = .ok (a + g i)) :
    loop n f 0 = .ok (∑ i ∈ Finset.range n, g i) := by
  obtain ⟨t, e, ht⟩ := loop_inv (n := n) (s := (0 : Rat)) (f := f) (fun k t => t = ∑ i ∈ Finset.range k, g i) rfl
    (by
      rintro i t hi rfl
      exact ⟨_, h i _ hi, by rw [Finset.sum_range_succ]⟩)
  rw [e, ht]

end Opm.Trans
