import Verif.Proofs.Sums
import Verif.Proofs.Graph
import Verif.Spec.Grid
/-!
# Sums over the faces of a cell
-/

namespace Opm
open Graph

/-- The row pointers of a mesh whose first row starts at 0. -/
theorem rowPos_of_csr {nr nc : Nat} {ia ja : List Nat} (h : CSR nr nc ia ja) (h0 : ia[0]? = some 0) : RowPos nr ia where
  len := by rw [h.len]; omega
  zero := h0
  mono := fun c a b _ ha hb => h.mono c a b ha hb

namespace GridTopo
variable {g : GridTopo}

theorem Valid.rowPos (hv : g.Valid) (h0 : g.cellFacepos[0]? = some 0) : RowPos g.nc g.cellFacepos := rowPos_of_csr hv.csr h0

/-- The face at position `i`. -/
theorem Valid.face_at (hv : g.Valid) {c i : Nat} (hc : c < g.nc) (hi : i < g.cellFacepos.getD (c + 1) 0) :
    ∃ f, g.cellFaces[i]? = some f ∧ f < g.nf := by
  have h1 := ia_mono hv.csr (i := c + 1) (j := g.nc) hc (le_refl _)
  have h2 := ia_bound hv.csr (i := g.nc) (le_refl _)
  have hlt : i < g.cellFaces.length := by omega
  exact ⟨_, List.getElem?_eq_getElem hlt, hv.csr.range _ i _ (ia_get hv.csr (le_refl _)) (by omega) (List.getElem?_eq_getElem hlt)⟩

theorem Valid.sides (hv : g.Valid) {f : Nat} (hf : f < g.nf) : ∃ a b, g.Sides f a b := by
  have := hv.fcLen
  exact ⟨_, _, List.getElem?_eq_getElem (by omega : 2 * f < _), List.getElem?_eq_getElem (by omega : 2 * f + 1 < _)⟩

theorem Sides.unique {f : Nat} {a b a' b' : Int} (h : g.Sides f a b) (h' : g.Sides f a' b') : a = a' ∧ b = b' := by
  obtain ⟨h1, h2⟩ := h
  obtain ⟨h3, h4⟩ := h'
  rw [h1] at h3; rw [h2] at h4
  exact ⟨Option.some.inj h3, Option.some.inj h4⟩

theorem Sides.lt (hv : g.Valid) {f : Nat} {a b : Int} (h : g.Sides f a b) : f < g.nf := by
  have := (List.getElem?_eq_some_iff.1 h.2).1
  rw [hv.fcLen] at this
  omega

theorem Valid.side_range (hv : g.Valid) {f : Nat} {a b : Int} (h : g.Sides f a b) : (a = -1 ∨ (0 ≤ a ∧ a < g.nc)) ∧ (b = -1 ∨ (0 ≤ b ∧ b < g.nc)) :=
  ⟨hv.fcRange a (List.mem_of_getElem? h.1), hv.fcRange b (List.mem_of_getElem? h.2)⟩

theorem hasFace_of {c i f : Nat} (hv : g.Valid) (hc : c < g.nc) (h1 : g.cellFacepos.getD c 0 ≤ i) (h2 : i < g.cellFacepos.getD (c + 1) 0)
    (hf : g.cellFaces[i]? = some f) : g.HasFace c f :=
  ⟨_, _, i, ia_get hv.csr (by omega), ia_get hv.csr (i := c + 1) hc, h1, h2, hf⟩

theorem hasFace_iff {c f : Nat} (hv : g.Valid) (hc : c < g.nc) :
    g.HasFace c f ↔ ∃ i, g.cellFacepos.getD c 0 ≤ i ∧ i < g.cellFacepos.getD (c + 1) 0 ∧ g.cellFaces[i]? = some f := by
  constructor
  · rintro ⟨a, b, e, ha, hb, h1, h2, he⟩
    rw [ia_get hv.csr (by omega)] at ha
    rw [ia_get hv.csr (i := c + 1) hc] at hb
    cases ha; cases hb
    exact ⟨e, h1, h2, he⟩
  · rintro ⟨i, h1, h2, h3⟩
    exact hasFace_of hv hc h1 h2 h3

/-- A sum over the faces of cell `c` as listed by the cell is the sum over all faces that list the cell. -/
theorem sum_row (hv : g.Valid) {c : Nat} (hc : c < g.nc) (h : Nat → Rat) :
    ∑ i ∈ Finset.Ico (g.cellFacepos.getD c 0) (g.cellFacepos.getD (c + 1) 0), h (g.cellFaces.getD i 0) =
      ∑ f ∈ (Finset.range g.nf).filter (fun f => g.faceCells[2 * f]? = some (c : Int) ∨ g.faceCells[2 * f + 1]? = some (c : Int)), h f := by
  have hget : ∀ i, i < g.cellFacepos.getD (c + 1) 0 → g.cellFaces[i]? = some (g.cellFaces.getD i 0) := by
    intro i hi
    obtain ⟨f, hf, _⟩ := hv.face_at hc hi
    simp [List.getD_eq_getElem?_getD, hf]
  refine Finset.sum_bij (fun i _ => g.cellFaces.getD i 0) ?_ ?_ ?_ (fun _ _ => rfl)
  · intro i hi
    rw [Finset.mem_Ico] at hi
    obtain ⟨f, hf, hlt⟩ := hv.face_at hc hi.2
    have e : g.cellFaces.getD i 0 = f := by simp [List.getD_eq_getElem?_getD, hf]
    simp only [e, Finset.mem_filter, Finset.mem_range]
    refine ⟨hlt, ?_⟩
    obtain ⟨a, b, hs⟩ := hv.sides hlt
    rcases (hv.agree c f a b hs).1 (hasFace_of hv hc hi.1 hi.2 hf) with rfl | rfl
    · exact Or.inl hs.1
    · exact Or.inr hs.2
  · intro i hi j hj e
    rw [Finset.mem_Ico] at hi hj
    exact hv.once c _ _ i j (g.cellFaces.getD i 0) (ia_get hv.csr (by omega)) (ia_get hv.csr (i := c + 1) hc) hi.1 hi.2 hj.1 hj.2
      (hget i hi.2) (by rw [e]; exact hget j hj.2)
  · intro f hf
    simp only [Finset.mem_filter, Finset.mem_range] at hf
    obtain ⟨hlt, hside⟩ := hf
    obtain ⟨a, b, hs⟩ := hv.sides hlt
    have : g.HasFace c f := by
      refine (hv.agree c f a b hs).2 ?_
      rcases hside with h | h
      · rw [hs.1] at h; exact Or.inl (Option.some.inj h)
      · rw [hs.2] at h; exact Or.inr (Option.some.inj h)
    obtain ⟨i, h1, h2, h3⟩ := (hasFace_iff hv hc).1 this
    refine ⟨i, Finset.mem_Ico.2 ⟨h1, h2⟩, ?_⟩
    simp [List.getD_eq_getElem?_getD, h3]

end GridTopo
end Opm
