import Verif.Proofs.FaceKeys
import Verif.Spec.ProcessedGrid
/-!
# Reading the faces of a processed grid
-/

namespace Opm.Cpg
open Opm UniquePoints

theorem take_getElem? {α : Type _} {l l' : List α} {n k : Nat} (h : l.take n = l') (hk : k < n) : l[k]? = l'[k]? := by
  rw [← h, List.getElem?_take_of_lt hk]

theorem faceNodes_mono (fs : List Face) (k : Nat) : (faceNodes (fs.take k)).length ≤ (faceNodes fs).length := by
  conv_rhs => rw [← List.take_append_drop k fs]
  rw [fNodes_append, List.length_append]
  omega

/-- Where the points of a face are. -/
theorem faceNodes_slice {fs : List Face} {k : Nat} {f : Face} (h : fs[k]? = some f) :
    ((faceNodes fs).drop (faceNodes (fs.take k)).length).take f.nodes.length = f.nodes := by
  obtain ⟨hk, hf⟩ := List.getElem?_eq_some_iff.1 h
  have e : fs = fs.take k ++ f :: fs.drop (k + 1) := by
    rw [← hf, List.cons_getElem_drop_succ, List.take_append_drop]
  conv_lhs => rw [e]
  rw [fNodes_append, fNodes_cons, List.take_append_of_le_length (by rw [List.length_take]; omega), List.take_take, Nat.min_self, List.drop_left', List.take_left']
  · rfl
  · rfl

section
variable {inp : Input} {tol : Rat} {out : Output} {s : Int} {np : Nat} {start : Nat → Nat} {col : Nat → Nat → Nat → Int} {fs : List Face} {ts : List Nat} {qs : List (List Int)}
  {gs : List Face}

/-- A face as it is stored. -/
def storedFace (inp : Input) (col : Nat → Nat → Nat → Int) (f : Face) : Face :=
  if inp.area < 0 then (f.renumber (solidCells inp.nx inp.ny inp.nz col)).reversed else f.renumber (solidCells inp.nx inp.ny inp.nz col)

theorem storedFace_a (f : Face) : (storedFace inp col f).a = compressed (solidCells inp.nx inp.ny inp.nz col) f.a := by
  unfold storedFace; split <;> rfl

theorem storedFace_b (f : Face) : (storedFace inp col f).b = compressed (solidCells inp.nx inp.ny inp.nz col) f.b := by
  unfold storedFace; split <;> rfl

theorem storedFace_nodes (f : Face) : (storedFace inp col f).nodes = if inp.area < 0 then f.nodes.reverse else f.nodes := by
  unfold storedFace; split <;> rfl

theorem GridOf.face (h : GridOf inp tol out s np start col fs ts qs gs) {k : Nat} {f : Face} (hf : (fs ++ gs)[k]? = some f) : out.face k = storedFace inp col f := by
  have hk : k < out.grid.nf := by rw [h.numFaces, ← List.length_append]; exact (List.getElem?_eq_some_iff.1 hf).1
  generalize hst : stored (solidCells inp.nx inp.ny inp.nz col) (inp.area < 0) (fs ++ gs) = st at *
  have hs : st[k]? = some (storedFace inp col f) := by
    rw [← hst]
    unfold stored
    rw [List.getElem?_map, hf]
    rfl
  have hlen : st.length = out.grid.nf := by rw [← hst, h.numFaces]; unfold stored; simp
  have hn := faceNbrs_get hs
  have h1 := h.nbrs
  have h2 := h.ptr
  have h3 := h.nodes
  rw [hst] at h1 h2 h3
  have p0 := (take_getElem? h2 (k := k) (by omega)).trans (facePtr_get (by omega))
  have p1 := (take_getElem? h2 (k := k + 1) (by omega)).trans (facePtr_get (by omega))
  have pn := (take_getElem? h2 (k := out.grid.nf) (by omega)).trans (facePtr_get (by omega))
  rw [← hlen, List.take_length] at pn
  have g0 : out.grid.ptr.getD k 0 = (faceNodes (st.take k)).length := by rw [List.getD_eq_getElem?_getD, p0]; rfl
  have g1 : out.grid.ptr.getD (k + 1) 0 = (faceNodes (st.take k)).length + (storedFace inp col f).nodes.length := by
    rw [List.getD_eq_getElem?_getD, p1, take_face hs, fNodes_append, List.length_append]
    unfold faceNodes
    simp
  have gn : out.grid.ptr.getD out.grid.nf 0 = (faceNodes st).length := by rw [List.getD_eq_getElem?_getD, ← hlen, pn]; rfl
  have a1 : out.grid.nbr.getD (2 * k) 0 = (storedFace inp col f).a := by
    rw [List.getD_eq_getElem?_getD, take_getElem? h1 (by omega), hn.1]; rfl
  have a2 : out.grid.nbr.getD (2 * k + 1) 0 = (storedFace inp col f).b := by
    rw [List.getD_eq_getElem?_getD, take_getElem? h1 (by omega), hn.2]; rfl
  have hle : (faceNodes (st.take k)).length + (storedFace inp col f).nodes.length ≤ (faceNodes st).length := by
    have := faceNodes_mono st (k + 1)
    rw [take_face hs, fNodes_append, List.length_append] at this
    unfold faceNodes at this ⊢
    simpa using this
  unfold Output.face
  rw [a1, a2, g0, g1, Nat.add_sub_cancel_left]
  have : (out.grid.nodes.drop (faceNodes (st.take k)).length).take (storedFace inp col f).nodes.length = (storedFace inp col f).nodes := by
    rw [gn] at h3
    have e := faceNodes_slice hs
    rw [← h3, List.drop_take, List.take_take, Nat.min_eq_left (by omega)] at e
    exact e
  rw [this]

theorem GridOf.tag (h : GridOf inp tol out s np start col fs ts qs gs) {k : Nat} {t : Nat} (hl : ts.length = fs.length) (ht : (ts ++ List.replicate gs.length 2)[k]? = some t) : out.tag k = t := by
  have hk := (List.getElem?_eq_some_iff.1 ht).1
  rw [List.length_append, List.length_replicate, hl, ← h.numFaces] at hk
  unfold Output.tag
  rw [List.getD_eq_getElem?_getD, take_getElem? h.tags hk, ht]
  rfl

end

end Opm.Cpg
