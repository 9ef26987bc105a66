import Verif.Spec.Grid
/-!
# Validity of concrete meshes by evaluation
-/

namespace Opm
open Graph

/-- A finite test for `GridTopo.Valid`. -/
def GridTopo.ValidB (g : GridTopo) : Prop :=
  g.cellFacepos.length = g.nc + 1 ∧ (∀ i, i < g.nc → g.cellFacepos.getD i 0 ≤ g.cellFacepos.getD (i + 1) 0) ∧
  g.cellFacepos.getD g.nc 0 ≤ g.cellFaces.length ∧ (∀ w ∈ g.cellFaces, w < g.nf) ∧ g.faceCells.length = 2 * g.nf ∧
  (∀ c ∈ g.faceCells, c = -1 ∨ (0 ≤ c ∧ c < g.nc)) ∧
  (∀ c, c < g.nc → ∀ f, f < g.nf → ((∃ e ∈ List.range g.cellFaces.length, g.cellFacepos.getD c 0 ≤ e ∧ e < g.cellFacepos.getD (c + 1) 0 ∧ g.cellFaces[e]? = some f) ↔
    (g.faceCells[2 * f]? = some (c : Int) ∨ g.faceCells[2 * f + 1]? = some (c : Int)))) ∧
  (∀ f, f < g.nf → g.faceCells[2 * f]? = g.faceCells[2 * f + 1]? → g.faceCells[2 * f]? = some (-1)) ∧
  (∀ c, c < g.nc → ∀ e, e < g.cellFacepos.getD (c + 1) 0 → ∀ e', e' < g.cellFacepos.getD (c + 1) 0 → 
    (g.cellFacepos.getD c 0 ≤ e ∧ g.cellFacepos.getD c 0 ≤ e' ∧ g.cellFaces[e]? = g.cellFaces[e']? → e = e'))

instance (g : GridTopo) : Decidable g.ValidB := by
  unfold GridTopo.ValidB
  refine @instDecidableAnd _ _ inferInstance (@instDecidableAnd _ _ inferInstance (@instDecidableAnd _ _ inferInstance (@instDecidableAnd _ _ inferInstance
    (@instDecidableAnd _ _ inferInstance (@instDecidableAnd _ _ inferInstance (@instDecidableAnd _ _ ?_ (@instDecidableAnd _ _ ?_ ?_)))))))
  · infer_instance
  · infer_instance
  · infer_instance

theorem GridTopo.ValidB.valid {g : GridTopo} (h : g.ValidB) : g.Valid := by
  obtain ⟨h1, h2, h3, h4, h5, h6, h7, h8, h9⟩ := h
  have hget : ∀ {i a : Nat}, g.cellFacepos[i]? = some a → g.cellFacepos.getD i 0 = a := by
    intro i a h
    simp [List.getD_eq_getElem?_getD, h]
  have hlt : ∀ {i a : Nat}, g.cellFacepos[i]? = some a → i ≤ g.nc := by
    intro i a h
    have := (List.getElem?_eq_some_iff.1 h).1
    omega
  have hsome : ∀ {i : Nat}, i ≤ g.nc → g.cellFacepos[i]? = some (g.cellFacepos.getD i 0) := by
    intro i hi
    have : i < g.cellFacepos.length := by omega
    simp [List.getD_eq_getElem?_getD, this]
  refine ⟨⟨h1, ?_, ?_, ?_⟩, h5, h6, ?_, ?_, ?_⟩
  · intro i a b ha hb
    have := hlt hb
    rw [← hget ha, ← hget hb]
    exact h2 i (by omega)
  · intro a ha
    rw [← hget ha]; exact h3
  · intro a e w _ _ hw
    exact h4 w (List.mem_of_getElem? hw)
  · intro c f a b hs
    have hf : f < g.nf := by
      have := (List.getElem?_eq_some_iff.1 hs.2).1
      omega
    by_cases hc : c < g.nc
    · have h := h7 c hc f hf
      rw [hs.1, hs.2, Option.some.injEq, Option.some.injEq] at h
      rw [← h]
      constructor
      · rintro ⟨p, q, e, hp, hq, h1, h2, he⟩
        exact ⟨e, List.mem_range.2 (List.getElem?_eq_some_iff.1 he).1, by rw [hget hp]; exact h1, by rw [hget hq]; exact h2, he⟩
      · rintro ⟨e, _, h1, h2, he⟩
        exact ⟨_, _, e, hsome (by omega), hsome (by omega), h1, h2, he⟩
    · constructor
      · rintro ⟨p, q, e, hp, hq, _⟩
        have := hlt hq
        omega
      · rintro (rfl | rfl)
        · have := h6 _ (List.mem_of_getElem? hs.1); omega
        · have := h6 _ (List.mem_of_getElem? hs.2); omega
  · rintro f a b hs ha rfl
    have hf : f < g.nf := by
      have := (List.getElem?_eq_some_iff.1 hs.2).1
      omega
    have := h8 f hf (by rw [hs.1, hs.2])
    rw [hs.1] at this
    have := Option.some.inj this
    omega
  · intro c a b e e' f ha hb h1 h2 h1' h2' he he'
    have hc := hlt hb
    exact h9 c (by omega) e (by rw [hget hb]; exact h2) e' (by rw [hget hb]; exact h2') ⟨by rw [hget ha]; exact h1, by rw [hget ha]; exact h1', by rw [he, he']⟩

end Opm
