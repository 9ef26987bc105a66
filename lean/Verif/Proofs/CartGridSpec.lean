import Mathlib.Tactic.Linarith
import Verif.Proofs.CartGrid
/-! # Proofs about Cartesian grids: from the arrays to the specification -/

namespace Opm.Cart

theorem posMap_get {n d c : Nat} (h : c ≤ n) : ((List.range (n + 1)).map (fun i => d * i))[c]? = some (d * c) := by
  rw [List.getElem?_map, List.getElem?_range (by omega)]
  rfl

theorem cellIs_of {G : Grid} {recs : List (List Nat)} {d : Nat} {tags : List Nat} (h1 : G.cellFaces = recs.flatMap id)
    (h2 : G.cellFacepos = (List.range (recs.length + 1)).map (fun i => d * i)) (h3 : G.cellFacetag = (List.range recs.length).flatMap fun _ => tags)
    (hr : ∀ r ∈ recs, r.length = d) (ht : tags.length = d) {c : Nat} {r : List Nat} (hc : recs[c]? = some r) : G.CellIs d c r tags := by
  have hlt := (List.getElem?_eq_some_iff.1 hc).1
  refine ⟨?_, ?_, ?_, ?_⟩
  · rw [h2, posMap_get (by omega)]
  · rw [h2, posMap_get (by omega), Nat.mul_succ]
  · rw [h1]
    exact slice_flatMap_const (f := id) hr hc
  · rw [h3]
    exact slice_flatMap_const (f := fun _ => tags) (fun _ _ => ht) (List.getElem?_range hlt)

theorem faceIs_of {G : Grid} {recs : List (List Nat × List Int)} {d : Nat} (h1 : G.faceNodes = recs.flatMap (·.1))
    (h2 : G.faceNodepos = (List.range (recs.length + 1)).map (fun i => d * i)) (h3 : G.faceCells = recs.flatMap (·.2))
    (hr : ∀ r ∈ recs, r.1.length = d ∧ r.2.length = 2) {f : Nat} {nodes : List Nat} {a b : Int} (hf : recs[f]? = some (nodes, [a, b])) :
    G.FaceIs d f nodes a b := by
  have hlt := (List.getElem?_eq_some_iff.1 hf).1
  refine ⟨?_, ?_, ?_, ?_, ?_⟩
  · rw [h2, posMap_get (by omega)]
  · rw [h2, posMap_get (by omega), Nat.mul_succ]
  · rw [h1]
    exact slice_flatMap_const (fun x hx => (hr x hx).1) hf
  · have := getElem?_flatMap_const (fun x hx => (hr x hx).2) hf (t := 0) (by omega)
    unfold Grid.topo
    rw [h3]
    simpa using this
  · have := getElem?_flatMap_const (fun x hx => (hr x hx).2) hf (t := 1) (by omega)
    unfold Grid.topo
    rw [h3]
    simpa using this

section three
variable {nx ny nz : Nat}

theorem faceRecs3_len : (faceRecs3 nx ny nz).length = (nx + 1) * ny * nz + nx * (ny + 1) * nz + nx * ny * (nz + 1) := by
  unfold faceRecs3
  rw [List.length_append, List.length_append, length_tab3, length_tab3, length_tab3]

theorem faceRecs3_rows : ∀ r ∈ faceRecs3 nx ny nz, r.1.length = 4 ∧ r.2.length = 2 := by
  intro r hr
  unfold faceRecs3 at hr
  rw [List.mem_append, List.mem_append] at hr
  rcases hr with (hr | hr) | hr
  · obtain ⟨i, j, k, _, _, _, rfl⟩ := mem_tab3 hr; exact ⟨rfl, rfl⟩
  · obtain ⟨i, j, k, _, _, _, rfl⟩ := mem_tab3 hr; exact ⟨rfl, rfl⟩
  · obtain ⟨i, j, k, _, _, _, rfl⟩ := mem_tab3 hr; exact ⟨rfl, rfl⟩

theorem faces_x {β : Type _} {rx ry rz : Nat → Nat → Nat → β} {i j k : Nat} (hi : i ≤ nx) (hj : j < ny) (hk : k < nz) :
    (tab3 (nx + 1) ny nz rx ++ tab3 nx (ny + 1) nz ry ++ tab3 nx ny (nz + 1) rz)[xface3 nx ny i j k]? = some (rx i j k) := by
  have := idx3_lt (a := nx + 1) (by omega : i < nx + 1) hj hk
  unfold xface3
  rw [List.append_assoc, List.getElem?_append_left (by rw [length_tab3]; exact this), getElem?_tab3 _ (by omega) hj hk]

theorem faces_y {β : Type _} {rx ry rz : Nat → Nat → Nat → β} {i j k : Nat} (hi : i < nx) (hj : j ≤ ny) (hk : k < nz) :
    (tab3 (nx + 1) ny nz rx ++ tab3 nx (ny + 1) nz ry ++ tab3 nx ny (nz + 1) rz)[yface3 nx ny nz i j k]? = some (ry i j k) := by
  have := idx3_lt (b := ny + 1) hi (by omega : j < ny + 1) hk
  unfold yface3
  rw [List.append_assoc, List.getElem?_append_right (by rw [length_tab3]; omega), length_tab3, Nat.add_sub_cancel_left,
    List.getElem?_append_left (by rw [length_tab3]; exact this), getElem?_tab3 _ hi (by omega) hk]

theorem faces_z {β : Type _} {rx ry rz : Nat → Nat → Nat → β} {i j k : Nat} (hi : i < nx) (hj : j < ny) (hk : k ≤ nz) :
    (tab3 (nx + 1) ny nz rx ++ tab3 nx (ny + 1) nz ry ++ tab3 nx ny (nz + 1) rz)[zface3 nx ny nz i j k]? = some (rz i j k) := by
  unfold zface3
  rw [List.getElem?_append_right (by rw [List.length_append, length_tab3, length_tab3]; omega), List.length_append, length_tab3, length_tab3,
    Nat.add_sub_cancel_left, getElem?_tab3 _ hi hj (by omega)]

/-- Every face number belongs to exactly one kind. -/
theorem face_cases {f : Nat} (h : f < (nx + 1) * ny * nz + nx * (ny + 1) * nz + nx * ny * (nz + 1)) :
    (∃ i j k, i ≤ nx ∧ j < ny ∧ k < nz ∧ f = xface3 nx ny i j k) ∨ (∃ i j k, i < nx ∧ j ≤ ny ∧ k < nz ∧ f = yface3 nx ny nz i j k) ∨
      ∃ i j k, i < nx ∧ j < ny ∧ k ≤ nz ∧ f = zface3 nx ny nz i j k := by
  by_cases h1 : f < (nx + 1) * ny * nz
  · left
    obtain ⟨i, j, k, hi, hj, hk, e⟩ := idx3_surj h1
    exact ⟨i, j, k, by omega, hj, hk, e⟩
  · right
    by_cases h2 : f < (nx + 1) * ny * nz + nx * (ny + 1) * nz
    · left
      obtain ⟨i, j, k, hi, hj, hk, e⟩ := idx3_surj (n := f - (nx + 1) * ny * nz) (a := nx) (b := ny + 1) (c := nz) (by omega)
      exact ⟨i, j, k, hi, by omega, hk, by unfold yface3; omega⟩
    · right
      obtain ⟨i, j, k, hi, hj, hk, e⟩ := idx3_surj (n := f - ((nx + 1) * ny * nz + nx * (ny + 1) * nz)) (a := nx) (b := ny) (c := nz + 1) (by omega)
      exact ⟨i, j, k, hi, hj, by omega, by unfold zface3; omega⟩

theorem xface3_lt {i j k : Nat} (hi : i ≤ nx) (hj : j < ny) (hk : k < nz) : xface3 nx ny i j k < (nx + 1) * ny * nz := by
  unfold xface3
  exact idx3_lt (by omega) hj hk

theorem yface3_lt {i j k : Nat} (hi : i < nx) (hj : j ≤ ny) (hk : k < nz) : yface3 nx ny nz i j k < (nx + 1) * ny * nz + nx * (ny + 1) * nz := by
  have := idx3_lt (b := ny + 1) hi (by omega : j < ny + 1) hk
  unfold yface3
  omega

theorem zface3_lt {i j k : Nat} (hi : i < nx) (hj : j < ny) (hk : k ≤ nz) :
    zface3 nx ny nz i j k < (nx + 1) * ny * nz + nx * (ny + 1) * nz + nx * ny * (nz + 1) := by
  have := idx3_lt hi hj (by omega : k < nz + 1)
  unfold zface3
  omega

theorem yface3_ge (i j k : Nat) : (nx + 1) * ny * nz ≤ yface3 nx ny nz i j k := Nat.le_add_right _ _
theorem zface3_ge (i j k : Nat) : (nx + 1) * ny * nz + nx * (ny + 1) * nz ≤ zface3 nx ny nz i j k := Nat.le_add_right _ _

theorem xface3_inj {i j k i' j' k' : Nat} (hi : i ≤ nx) (hj : j < ny) (hi' : i' ≤ nx) (hj' : j' < ny) (h : xface3 nx ny i j k = xface3 nx ny i' j' k') :
    i = i' ∧ j = j' ∧ k = k' := idx3_inj (by omega) (by omega) hj hj' h

theorem yface3_inj {i j k i' j' k' : Nat} (hi : i < nx) (hj : j ≤ ny) (hi' : i' < nx) (hj' : j' ≤ ny)
    (h : yface3 nx ny nz i j k = yface3 nx ny nz i' j' k') : i = i' ∧ j = j' ∧ k = k' := by
  unfold yface3 at h
  exact idx3_inj hi hi' (by omega) (by omega) (Nat.add_left_cancel h)

theorem zface3_inj {i j k i' j' k' : Nat} (hi : i < nx) (hj : j < ny) (hi' : i' < nx) (hj' : j' < ny)
    (h : zface3 nx ny nz i j k = zface3 nx ny nz i' j' k') : i = i' ∧ j = j' ∧ k = k' := by
  unfold zface3 at h
  exact idx3_inj hi hi' hj hj' (Nat.add_left_cancel h)

theorem cell3_inj {i j k i' j' k' : Nat} (hi : i < nx) (hj : j < ny) (hi' : i' < nx) (hj' : j' < ny)
    (h : cell3 nx ny i j k = cell3 nx ny i' j' k') : i = i' ∧ j = j' ∧ k = k' := idx3_inj hi hi' hj hj' h

end three

/-- A grid whose arrays consist of rows of equal length is valid if the rows agree. -/
theorem valid_of_rows {G : GridTopo} {rows : List (List Nat)} {sides : List (Int × Int)} {d : Nat}
    (hnc : G.nc = rows.length) (hnf : G.nf = sides.length) (h1 : G.cellFaces = rows.flatMap id)
    (h2 : G.cellFacepos = (List.range (rows.length + 1)).map (fun i => d * i)) (h3 : G.faceCells = sides.flatMap fun s => [s.1, s.2])
    (hr : ∀ r ∈ rows, r.length = d) (hd : ∀ r ∈ rows, r.Nodup) (hf : ∀ r ∈ rows, ∀ f ∈ r, f < sides.length)
    (hs : ∀ s ∈ sides, (s.1 = -1 ∨ (0 ≤ s.1 ∧ s.1 < rows.length)) ∧ (s.2 = -1 ∨ (0 ≤ s.2 ∧ s.2 < rows.length)) ∧ (0 ≤ s.1 → s.1 ≠ s.2))
    (ha : ∀ (c f : Nat) r a b, rows[c]? = some r → sides[f]? = some (a, b) → (f ∈ r ↔ a = (c : Int) ∨ b = (c : Int))) : G.Valid := by
  have hsl : ∀ s ∈ sides, [s.1, s.2].length = 2 := fun _ _ => rfl
  have hlen : (rows.flatMap id).length = rows.length * d := length_flatMap_const hr
  have hsides : ∀ f a b, G.Sides f a b → sides[f]? = some (a, b) := by
    rintro f a b ⟨s1, s2⟩
    rw [h3] at s1 s2
    have hflt : f < sides.length := by
      have := (List.getElem?_eq_some_iff.1 s1).1
      rw [length_flatMap_const hsl] at this
      omega
    have hx := List.getElem?_eq_getElem hflt
    have e1 := getElem?_flatMap_const hsl hx (t := 0) (by omega)
    have e2 := getElem?_flatMap_const hsl hx (t := 1) (by omega)
    rw [Nat.add_zero, s1] at e1
    rw [s2] at e2
    rw [hx]
    simp only [List.getElem?_cons_zero, List.getElem?_cons_succ, Option.some.injEq] at e1 e2
    rw [e1, e2]
  have hrow : ∀ c f, G.HasFace c f ↔ ∃ r, rows[c]? = some r ∧ f ∈ r := by
    intro c f
    unfold GridTopo.HasFace Graph.Edge
    rw [h1, h2]
    constructor
    · rintro ⟨a, b, e, ha, hb, hae, heb, hfe⟩
      have hc : c < rows.length := by
        have := (List.getElem?_eq_some_iff.1 hb).1
        simp at this; omega
      rw [posMap_get (by omega)] at ha hb
      cases ha; cases hb
      rw [Nat.mul_succ] at heb
      have hx := List.getElem?_eq_getElem hc
      have := getElem?_flatMap_const (f := id) hr hx (t := e - d * c) (by omega)
      rw [show d * c + (e - d * c) = e by omega, hfe] at this
      exact ⟨_, hx, List.mem_of_getElem? this.symm⟩
    · rintro ⟨r, hx, hm⟩
      have hc := (List.getElem?_eq_some_iff.1 hx).1
      obtain ⟨t, ht⟩ := List.mem_iff_getElem?.1 hm
      have htd : t < d := by
        have := (List.getElem?_eq_some_iff.1 ht).1
        rw [hr r (List.mem_of_getElem? hx)] at this
        exact this
      refine ⟨d * c, d * (c + 1), d * c + t, posMap_get (by omega), posMap_get (by omega), by omega, by rw [Nat.mul_succ]; omega, ?_⟩
      rw [getElem?_flatMap_const (f := id) hr hx htd]
      exact ht
  refine ⟨⟨?_, ?_, ?_, ?_⟩, ?_, ?_, ?_, ?_, ?_⟩
  · rw [h2, hnc]; simp
  · intro i a b ha hb
    rw [h2] at ha hb
    have hi : i + 1 ≤ rows.length := by
      have := (List.getElem?_eq_some_iff.1 hb).1
      simp at this; omega
    rw [posMap_get (by omega)] at ha hb
    cases ha; cases hb
    exact Nat.mul_le_mul_left d (by omega)
  · intro a ha
    rw [h2, hnc, posMap_get (by omega)] at ha
    cases ha
    rw [h1, hlen, Nat.mul_comm]
  · intro a e w ha _ hw
    rw [h1] at hw
    have := List.mem_of_getElem? hw
    rw [List.mem_flatMap] at this
    obtain ⟨r, hrm, hwr⟩ := this
    rw [hnf]
    exact hf r hrm w hwr
  · rw [h3, hnf, length_flatMap_const hsl, Nat.mul_comm]
  · intro c hc
    rw [h3, List.mem_flatMap] at hc
    obtain ⟨s, hsm, hcs⟩ := hc
    obtain ⟨q1, q2, _⟩ := hs s hsm
    rw [hnc]
    rcases List.mem_cons.1 hcs with rfl | hcs
    · exact q1
    · rw [List.mem_singleton.1 hcs]; exact q2
  · intro c f a b hsd
    rw [hrow c f]
    have hsf := hsides f a b hsd
    constructor
    · rintro ⟨r, hx, hm⟩
      exact (ha c f r a b hx hsf).1 hm
    · intro hor
      have hc : c < rows.length := by
        obtain ⟨q1, q2, _⟩ := hs _ (List.mem_of_getElem? hsf)
        simp only at q1 q2
        rcases hor with h | h <;> omega
      exact ⟨_, List.getElem?_eq_getElem hc, (ha c f _ a b (List.getElem?_eq_getElem hc) hsf).2 hor⟩
  · intro f a b hsd h0
    exact (hs _ (List.mem_of_getElem? (hsides f a b hsd))).2.2 h0
  · intro c a b e e' f ha hb he heb he' heb' hf1 hf2
    rw [h2] at ha hb
    have hc : c < rows.length := by
      have := (List.getElem?_eq_some_iff.1 hb).1
      simp at this; omega
    rw [posMap_get (by omega)] at ha hb
    cases ha; cases hb
    rw [Nat.mul_succ] at heb heb'
    have hx := List.getElem?_eq_getElem hc
    have e1 := getElem?_flatMap_const (f := id) hr hx (t := e - d * c) (by omega)
    have e2 := getElem?_flatMap_const (f := id) hr hx (t := e' - d * c) (by omega)
    rw [h1] at hf1 hf2
    rw [show d * c + (e - d * c) = e by omega, hf1] at e1
    rw [show d * c + (e' - d * c) = e' by omega, hf2] at e2
    have hnd := hd _ (List.mem_of_getElem? hx)
    have hlt1 := (List.getElem?_eq_some_iff.1 e1.symm).1
    have := (List.getElem?_inj hlt1 hnd).1 (e1.symm.trans e2)
    omega

theorem isCart3d {nx ny nz : Nat} {G : Grid} (hnd : G.ndims = 3) (hdm : G.cartdims = (nx, ny, nz)) (hnc : G.nc = nx * ny * nz)
    (hnf : G.nf = (nx + 1) * ny * nz + nx * (ny + 1) * nz + nx * ny * (nz + 1)) (hnn : G.nn = (nx + 1) * (ny + 1) * (nz + 1))
    (h1 : G.cellFaces = (tab3 nx ny nz (cellRec3 nx ny nz)).flatMap id)
    (h2 : G.cellFacepos = (List.range (nx * ny * nz + 1)).map (fun i => 6 * i))
    (h3 : G.cellFacetag = (List.range (nx * ny * nz)).flatMap fun _ => [0, 1, 2, 3, 4, 5])
    (h4 : G.faceNodes = (faceRecs3 nx ny nz).flatMap (·.1))
    (h5 : G.faceNodepos = (List.range ((nx + 1) * ny * nz + nx * (ny + 1) * nz + nx * ny * (nz + 1) + 1)).map (fun i => 4 * i))
    (h6 : G.faceCells = (faceRecs3 nx ny nz).flatMap (·.2)) : IsCart3d nx ny nz G := by
  have hfr : ∀ {f : Nat} {nodes : List Nat} {a b : Int}, (faceRecs3 nx ny nz)[f]? = some (nodes, [a, b]) → G.FaceIs 4 f nodes a b :=
    fun hf => faceIs_of h4 (by rw [faceRecs3_len]; exact h5) h6 faceRecs3_rows hf
  refine ⟨hnd, hdm, hnc, hnf, hnn, ?_, ?_, ?_, ?_⟩
  · intro i j k hi hj hk
    refine cellIs_of (recs := tab3 nx ny nz (cellRec3 nx ny nz)) (d := 6) h1 (by rw [length_tab3]; exact h2) (by rw [length_tab3]; exact h3) ?_ rfl
      (getElem?_tab3 _ hi hj hk)
    intro r hr
    obtain ⟨i, j, k, _, _, _, rfl⟩ := mem_tab3 hr
    rfl
  · intro i j k hi hj hk
    exact hfr (faces_x hi hj hk)
  · intro i j k hi hj hk
    exact hfr (faces_y hi hj hk)
  · intro i j k hi hj hk
    exact hfr (faces_z hi hj hk)

theorem before_eq {p c' : Nat} {c : Nat → Nat} : before p c = (c' : Int) ↔ p ≠ 0 ∧ c (p - 1) = c' := by
  unfold before
  split <;> omega

theorem after_eq {p n c' : Nat} {c : Nat → Nat} : after p n c = (c' : Int) ↔ p ≠ n ∧ c p = c' := by
  unfold after
  split <;> omega

theorem before_range {p n m : Nat} {c : Nat → Nat} (hp : p ≤ n) (h : ∀ q, q < n → c q < m) : before p c = -1 ∨ (0 ≤ before p c ∧ before p c < m) := by
  unfold before
  split
  · left; rfl
  · right
    have := h (p - 1) (by omega)
    omega

theorem after_range {p n m : Nat} {c : Nat → Nat} (hp : p ≤ n) (h : ∀ q, q < n → c q < m) : after p n c = -1 ∨ (0 ≤ after p n c ∧ after p n c < m) := by
  unfold after
  split
  · left; rfl
  · right
    have := h p (by omega)
    omega

theorem before_ne_after {p n : Nat} {c : Nat → Nat} (hc : ∀ q, q + 1 < n → c q ≠ c (q + 1)) (hp : p ≤ n) (h0 : 0 ≤ before p c) : before p c ≠ after p n c := by
  unfold before at h0 ⊢
  unfold after
  by_cases h : p = 0
  · rw [if_pos h] at h0; omega
  · rw [if_neg h]
    by_cases h' : p = n
    · rw [if_pos h']; omega
    · rw [if_neg h']
      have := hc (p - 1) (by omega)
      rw [show p - 1 + 1 = p by omega] at this
      omega

/-- The sides of the faces. -/
def sideRecs3 (nx ny nz : Nat) : List (Int × Int) :=
  tab3 (nx + 1) ny nz (fun i j k => (before i (fun i => cell3 nx ny i j k), after i nx (fun i => cell3 nx ny i j k))) ++
  tab3 nx (ny + 1) nz (fun i j k => (before j (fun j => cell3 nx ny i j k), after j ny (fun j => cell3 nx ny i j k))) ++
  tab3 nx ny (nz + 1) (fun i j k => (before k (fun k => cell3 nx ny i j k), after k nz (fun k => cell3 nx ny i j k)))

theorem flatMap_tab3 {β γ : Type _} (a b c : Nat) (r : Nat → Nat → Nat → β) (f : β → List γ) :
    (tab3 a b c r).flatMap f = (List.range c).flatMap fun k => (List.range b).flatMap fun j => (List.range a).flatMap fun i => f (r i j k) := by
  unfold tab3 tab2
  simp only [List.flatMap_assoc, List.flatMap_singleton]

theorem sideRecs3_flat (nx ny nz : Nat) : (sideRecs3 nx ny nz).flatMap (fun s => [s.1, s.2]) = (faceRecs3 nx ny nz).flatMap (·.2) := by
  unfold sideRecs3 faceRecs3
  simp only [List.flatMap_append, flatMap_tab3]
  rfl

theorem valid3d {nx ny nz : Nat} {G : GridTopo} (hnc : G.nc = nx * ny * nz)
    (hnf : G.nf = (nx + 1) * ny * nz + nx * (ny + 1) * nz + nx * ny * (nz + 1))
    (h1 : G.cellFaces = (tab3 nx ny nz (cellRec3 nx ny nz)).flatMap id)
    (h2 : G.cellFacepos = (List.range (nx * ny * nz + 1)).map (fun i => 6 * i))
    (h6 : G.faceCells = (faceRecs3 nx ny nz).flatMap (·.2)) : G.Valid := by
  have hsl : (sideRecs3 nx ny nz).length = (nx + 1) * ny * nz + nx * (ny + 1) * nz + nx * ny * (nz + 1) := by
    unfold sideRecs3
    rw [List.length_append, List.length_append, length_tab3, length_tab3, length_tab3]
  have hcl : ∀ {i j k}, i < nx → j < ny → k < nz → cell3 nx ny i j k < nx * ny * nz := fun hi hj hk => idx3_lt hi hj hk
  refine valid_of_rows (rows := tab3 nx ny nz (cellRec3 nx ny nz)) (sides := sideRecs3 nx ny nz) (d := 6) (by rw [hnc, length_tab3])
    (by rw [hnf, hsl]) h1 (by rw [length_tab3]; exact h2) (by rw [sideRecs3_flat]; exact h6) ?_ ?_ ?_ ?_ ?_
  · intro r hr
    obtain ⟨i, j, k, _, _, _, rfl⟩ := mem_tab3 hr
    rfl
  · intro r hr
    obtain ⟨i, j, k, hi, hj, hk, rfl⟩ := mem_tab3 hr
    have x1 := xface3_lt (nx := nx) (ny := ny) (nz := nz) (i := i) (by omega) hj hk
    have x2 := xface3_lt (nx := nx) (ny := ny) (nz := nz) (i := i + 1) (by omega) hj hk
    have y1 := yface3_lt (nx := nx) (ny := ny) (nz := nz) (j := j) hi (by omega) hk
    have y2 := yface3_lt (nx := nx) (ny := ny) (nz := nz) (j := j + 1) hi (by omega) hk
    have y3 := yface3_ge (nx := nx) (ny := ny) (nz := nz) i j k
    have y4 := yface3_ge (nx := nx) (ny := ny) (nz := nz) i (j + 1) k
    have z1 := zface3_ge (nx := nx) (ny := ny) (nz := nz) i j k
    have z2 := zface3_ge (nx := nx) (ny := ny) (nz := nz) i j (k + 1)
    have n1 : xface3 nx ny i j k ≠ xface3 nx ny (i + 1) j k := fun h => by
      have := (xface3_inj (by omega) hj (by omega) hj h).1; omega
    have n2 : yface3 nx ny nz i j k ≠ yface3 nx ny nz i (j + 1) k := fun h => by
      have := (yface3_inj hi (by omega) hi (by omega) h).2.1; omega
    have n3 : zface3 nx ny nz i j k ≠ zface3 nx ny nz i j (k + 1) := fun h => by
      have := (zface3_inj hi hj hi hj h).2.2; omega
    unfold cellRec3
    simp only [List.nodup_cons, List.mem_cons, List.not_mem_nil, or_false, not_false_eq_true, List.nodup_nil, and_true, not_or]
    omega
  · intro r hr f hf
    obtain ⟨i, j, k, hi, hj, hk, rfl⟩ := mem_tab3 hr
    rw [hsl]
    have x1 := xface3_lt (nx := nx) (ny := ny) (nz := nz) (i := i) (by omega) hj hk
    have x2 := xface3_lt (nx := nx) (ny := ny) (nz := nz) (i := i + 1) (by omega) hj hk
    have y1 := yface3_lt (nx := nx) (ny := ny) (nz := nz) (j := j) hi (by omega) hk
    have y2 := yface3_lt (nx := nx) (ny := ny) (nz := nz) (j := j + 1) hi (by omega) hk
    have z1 := zface3_lt (nx := nx) (ny := ny) (nz := nz) (k := k) hi hj (by omega)
    have z2 := zface3_lt (nx := nx) (ny := ny) (nz := nz) (k := k + 1) hi hj (by omega)
    unfold cellRec3 at hf
    simp only [List.mem_cons, List.not_mem_nil, or_false] at hf
    omega
  · intro s hs
    rw [length_tab3]
    unfold sideRecs3 at hs
    rw [List.mem_append, List.mem_append] at hs
    rcases hs with (hs | hs) | hs
    · obtain ⟨i, j, k, hi, hj, hk, rfl⟩ := mem_tab3 hs
      refine ⟨before_range (n := nx) (by omega) (fun q hq => hcl hq hj hk), after_range (by omega) (fun q hq => hcl hq hj hk),
        before_ne_after (p := i) (n := nx) (c := fun i => cell3 nx ny i j k) (fun q hq h => ?_) (by omega)⟩
      have := (cell3_inj (nx := nx) (ny := ny) (i := q) (i' := q + 1) (by omega) hj (by omega) hj h).1
      omega
    · obtain ⟨i, j, k, hi, hj, hk, rfl⟩ := mem_tab3 hs
      refine ⟨before_range (n := ny) (by omega) (fun q hq => hcl hi hq hk), after_range (by omega) (fun q hq => hcl hi hq hk),
        before_ne_after (p := j) (n := ny) (c := fun j => cell3 nx ny i j k) (fun q hq h => ?_) (by omega)⟩
      have := (cell3_inj (nx := nx) (ny := ny) (j := q) (j' := q + 1) hi (by omega) hi (by omega) h).2.1
      omega
    · obtain ⟨i, j, k, hi, hj, hk, rfl⟩ := mem_tab3 hs
      refine ⟨before_range (n := nz) (by omega) (fun q hq => hcl hi hj hq), after_range (by omega) (fun q hq => hcl hi hj hq),
        before_ne_after (p := k) (n := nz) (fun q hq h => ?_) (by omega)⟩
      have := (cell3_inj hi hj hi hj h).2.2
      omega
  · intro c f r a b hc hf
    have hclt := (List.getElem?_eq_some_iff.1 hc).1
    rw [length_tab3] at hclt
    obtain ⟨i, j, k, hi, hj, hk, rfl⟩ := idx3_surj hclt
    rw [getElem?_tab3 _ hi hj hk] at hc
    cases hc
    have hflt := (List.getElem?_eq_some_iff.1 hf).1
    rw [hsl] at hflt
    change _ ↔ a = ((cell3 nx ny i j k : Nat) : Int) ∨ b = ((cell3 nx ny i j k : Nat) : Int)
    have x1 := xface3_lt (nx := nx) (ny := ny) (nz := nz) (i := i) (by omega) hj hk
    have x2 := xface3_lt (nx := nx) (ny := ny) (nz := nz) (i := i + 1) (by omega) hj hk
    have y1 := yface3_lt (nx := nx) (ny := ny) (nz := nz) (j := j) hi (by omega) hk
    have y2 := yface3_lt (nx := nx) (ny := ny) (nz := nz) (j := j + 1) hi (by omega) hk
    have y3 := yface3_ge (nx := nx) (ny := ny) (nz := nz) i j k
    have y4 := yface3_ge (nx := nx) (ny := ny) (nz := nz) i (j + 1) k
    have z1 := zface3_ge (nx := nx) (ny := ny) (nz := nz) i j k
    have z2 := zface3_ge (nx := nx) (ny := ny) (nz := nz) i j (k + 1)
    unfold cellRec3
    simp only [List.mem_cons, List.not_mem_nil, or_false]
    rcases face_cases hflt with ⟨i', j', k', hi', hj', hk', rfl⟩ | ⟨i', j', k', hi', hj', hk', rfl⟩ | ⟨i', j', k', hi', hj', hk', rfl⟩
    · unfold sideRecs3 at hf
      rw [faces_x hi' hj' hk'] at hf
      cases hf
      rw [before_eq, after_eq]
      have hlt := xface3_lt (nx := nx) (ny := ny) (nz := nz) hi' hj' hk'
      constructor
      · intro h
        rcases h with h | h | h | h | h | h
        · obtain ⟨rfl, rfl, rfl⟩ := xface3_inj hi' hj' (by omega) hj h
          right; exact ⟨by omega, rfl⟩
        · obtain ⟨rfl, rfl, rfl⟩ := xface3_inj hi' hj' (by omega) hj h
          left; exact ⟨by omega, rfl⟩
        all_goals omega
      · rintro (⟨h0, h⟩ | ⟨h0, h⟩)
        · obtain ⟨h1, rfl, rfl⟩ := cell3_inj (by omega) hj' hi hj h
          right; left
          rw [show i + 1 = i' by omega]
        · obtain ⟨rfl, rfl, rfl⟩ := cell3_inj (by omega) hj' hi hj h
          left; rfl
    · unfold sideRecs3 at hf
      rw [faces_y hi' hj' hk'] at hf
      cases hf
      rw [before_eq, after_eq]
      have hlt := yface3_lt (nx := nx) (ny := ny) (nz := nz) hi' hj' hk'
      have hge := yface3_ge (nx := nx) (ny := ny) (nz := nz) i' j' k'
      constructor
      · intro h
        rcases h with h | h | h | h | h | h
        · omega
        · omega
        · obtain ⟨rfl, rfl, rfl⟩ := yface3_inj hi' hj' hi (by omega) h
          right; exact ⟨by omega, rfl⟩
        · obtain ⟨rfl, rfl, rfl⟩ := yface3_inj hi' hj' hi (by omega) h
          left; exact ⟨by omega, rfl⟩
        all_goals omega
      · rintro (⟨h0, h⟩ | ⟨h0, h⟩)
        · obtain ⟨rfl, h1, rfl⟩ := cell3_inj hi' (by omega) hi hj h
          right; right; right; left
          rw [show j + 1 = j' by omega]
        · obtain ⟨rfl, rfl, rfl⟩ := cell3_inj hi' (by omega) hi hj h
          right; right; left; rfl
    · unfold sideRecs3 at hf
      rw [faces_z hi' hj' hk'] at hf
      cases hf
      rw [before_eq, after_eq]
      have hge := zface3_ge (nx := nx) (ny := ny) (nz := nz) i' j' k'
      constructor
      · intro h
        rcases h with h | h | h | h | h | h
        · omega
        · omega
        · omega
        · omega
        · obtain ⟨rfl, rfl, rfl⟩ := zface3_inj hi' hj' hi hj h
          right; exact ⟨by omega, rfl⟩
        · obtain ⟨rfl, rfl, rfl⟩ := zface3_inj hi' hj' hi hj h
          left; exact ⟨by omega, rfl⟩
      · rintro (⟨h0, h⟩ | ⟨h0, h⟩)
        · obtain ⟨rfl, rfl, h1⟩ := cell3_inj hi' hj' hi hj h
          right; right; right; right; right
          rw [show k + 1 = k' by omega]
        · obtain ⟨rfl, rfl, rfl⟩ := cell3_inj hi' hj' hi hj h
          right; right; right; right; left; rfl

theorem cellGeo_of {G : Grid} {recs : List (List Rat × Rat)} {d : Nat} (h1 : G.cellCentroids = recs.flatMap (·.1)) (h2 : G.cellVolumes = recs.map (·.2))
    (hr : ∀ r ∈ recs, r.1.length = d) {c : Nat} {cent : List Rat} {vol : Rat} (hc : recs[c]? = some (cent, vol)) : G.CellGeo d c cent vol := by
  refine ⟨?_, ?_⟩
  · rw [h1]
    exact slice_flatMap_const (x := (cent, vol)) hr hc
  · rw [h2, List.getElem?_map, hc]
    rfl

theorem faceGeo_of {G : Grid} {recs : List (List Rat × List Rat × Rat)} {d : Nat} (h1 : G.faceNormals = recs.flatMap (·.1))
    (h2 : G.faceCentroids = recs.flatMap (·.2.1)) (h3 : G.faceAreas = recs.map (·.2.2)) (hr : ∀ r ∈ recs, r.1.length = d ∧ r.2.1.length = d)
    {f : Nat} {nrm cent : List Rat} {area : Rat} (hf : recs[f]? = some (nrm, cent, area)) : G.FaceGeo d f nrm cent area := by
  refine ⟨?_, ?_, ?_⟩
  · rw [h1]
    exact slice_flatMap_const (x := (nrm, cent, area)) (fun x hx => (hr x hx).1) hf
  · rw [h2]
    exact slice_flatMap_const (x := (nrm, cent, area)) (fun x hx => (hr x hx).2) hf
  · rw [h3, List.getElem?_map, hf]
    rfl

theorem isBoxes3d {nx ny nz : Nat} {X Y Z : Nat → Rat} {G : Grid}
    (h1 : G.cellCentroids = (tab3 nx ny nz (cellGeoRec3 X Y Z)).flatMap (·.1))
    (h2 : G.cellVolumes = (tab3 nx ny nz (cellGeoRec3 X Y Z)).map (·.2))
    (h3 : G.faceNormals = (faceGeoRecs3 nx ny nz X Y Z).flatMap (·.1))
    (h4 : G.faceCentroids = (faceGeoRecs3 nx ny nz X Y Z).flatMap (·.2.1))
    (h5 : G.faceAreas = (faceGeoRecs3 nx ny nz X Y Z).map (·.2.2))
    (h6 : G.nodeCoord = (tab3 (nx + 1) (ny + 1) (nz + 1) (fun i j k => [X i, Y j, Z k])).flatMap id) : IsBoxes3d nx ny nz X Y Z G := by
  have hfr : ∀ r ∈ faceGeoRecs3 nx ny nz X Y Z, r.1.length = 3 ∧ r.2.1.length = 3 := by
    intro r hr
    unfold faceGeoRecs3 at hr
    rw [List.mem_append, List.mem_append] at hr
    rcases hr with (hr | hr) | hr
    · obtain ⟨i, j, k, _, _, _, rfl⟩ := mem_tab3 hr; exact ⟨rfl, rfl⟩
    · obtain ⟨i, j, k, _, _, _, rfl⟩ := mem_tab3 hr; exact ⟨rfl, rfl⟩
    · obtain ⟨i, j, k, _, _, _, rfl⟩ := mem_tab3 hr; exact ⟨rfl, rfl⟩
  refine ⟨?_, ?_, ?_, ?_, ?_, ?_⟩
  · intro i j k hi hj hk
    refine cellGeo_of h1 h2 ?_ (getElem?_tab3 _ hi hj hk)
    intro r hr
    obtain ⟨i, j, k, _, _, _, rfl⟩ := mem_tab3 hr
    rfl
  · intro i j k hi hj hk
    exact faceGeo_of h3 h4 h5 hfr (faces_x hi hj hk)
  · intro i j k hi hj hk
    exact faceGeo_of h3 h4 h5 hfr (faces_y hi hj hk)
  · intro i j k hi hj hk
    exact faceGeo_of h3 h4 h5 hfr (faces_z hi hj hk)
  · intro i j k hi hj hk
    rw [h6]
    refine slice_flatMap_const (f := id) ?_ (getElem?_tab3 (fun i j k => [X i, Y j, Z k]) (by omega) (by omega) (by omega))
    intro r hr
    obtain ⟨i, j, k, _, _, _, rfl⟩ := mem_tab3 hr
    rfl
  · rw [h2, List.length_map, length_tab3]

theorem sum_flatMap {β : Type _} (l : List β) (f : β → List Rat) : (l.flatMap f).sum = (l.map (fun x => (f x).sum)).sum := by
  induction l with
  | nil => rfl
  | cons x l ih => simp [ih]

theorem sum_range_mul (n : Nat) (f : Nat → Rat) (c : Rat) : ((List.range n).map (fun i => f i * c)).sum = ((List.range n).map f).sum * c := by
  induction n with
  | zero => simp
  | succ n ih => rw [List.range_succ]; simp [ih]; ring

theorem sum_mul_range (n : Nat) (f : Nat → Rat) (c : Rat) : ((List.range n).map (fun i => c * f i)).sum = c * ((List.range n).map f).sum := by
  induction n with
  | zero => simp
  | succ n ih => rw [List.range_succ]; simp [ih]; ring

theorem sum_len (n : Nat) (X : Nat → Rat) : ((List.range n).map (len X)).sum = X n - X 0 := by
  induction n with
  | zero => simp
  | succ n ih => rw [List.range_succ]; simp [ih, len]

theorem volumes3d (nx ny nz : Nat) (X Y Z : Nat → Rat) :
    ((tab3 nx ny nz (cellGeoRec3 X Y Z)).map (·.2)).sum = (X nx - X 0) * (Y ny - Y 0) * (Z nz - Z 0) := by
  have : (tab3 nx ny nz (cellGeoRec3 X Y Z)).map (·.2) = (tab3 nx ny nz (cellGeoRec3 X Y Z)).flatMap (fun r => [r.2]) := by
    rw [List.map_eq_flatMap]
  rw [this, flatMap_tab3]
  simp only [sum_flatMap, cellGeoRec3, List.sum_singleton]
  simp only [sum_range_mul, sum_mul_range]
  rw [show (List.range nx).map (fun a => len X a) = (List.range nx).map (len X) from rfl,
    show (List.range ny).map (fun a => len Y a) = (List.range ny).map (len Y) from rfl,
    show (List.range nz).map (fun a => len Z a) = (List.range nz).map (len Z) from rfl, sum_len, sum_len, sum_len]

/-! ### Two dimensions -/

section two
variable {nx ny : Nat}

def cellRec2 (nx ny i j : Nat) : List Nat := [xface2 nx i j, yface2 nx ny i j, xface2 nx (i + 1) j, yface2 nx ny i (j + 1)]

def xRec2 (nx i j : Nat) : List Nat × List Int :=
  ([node2 nx i j, node2 nx i (j + 1)], [before i (fun i => cell2 nx i j), after i nx (fun i => cell2 nx i j)])

def yRec2 (nx ny i j : Nat) : List Nat × List Int :=
  ([node2 nx (i + 1) j, node2 nx i j], [before j (fun j => cell2 nx i j), after j ny (fun j => cell2 nx i j)])

def faceRecs2 (nx ny : Nat) : List (List Nat × List Int) := tab2 (nx + 1) ny (xRec2 nx) ++ tab2 nx (ny + 1) (yRec2 nx ny)

theorem cellLoop2_ok {s : CellCur} (h : s.Rep (nx * ny) 4 []) :
    ∃ s', cellLoop2 nx ny s = .ok s' ∧ s'.Rep (nx * ny) 4 (tab2 nx ny (cellRec2 nx ny)) := by
  have := loop2_emit (fun s l => CellCur.Rep s (nx * ny) 4 l) (nx * ny) (a := nx) (b := ny)
    (body := fun i j s => s.emit 4 (cellRec2 nx ny i j)) (cellRec2 nx ny)
    (fun i j _ _ s l h hc => CellCur.emit_rep _ rfl h hc) h (by simp)
  rw [List.nil_append] at this
  obtain ⟨s', e, r⟩ := this
  refine ⟨s', ?_, r⟩
  rw [← e]
  unfold cellLoop2 cellRec2 xface2 yface2
  simp only [Nat.add_comm, Nat.add_assoc]

theorem xFaceLoop2_ok {nf : Nat} (hx : 0 < nx) {s : FaceCur} {l : List (List Nat × List Int)} (h : s.Rep nf 2 l) (hc : l.length + (nx + 1) * ny ≤ nf) :
    ∃ s', xFaceLoop2 nx ny s = .ok s' ∧ s'.Rep nf 2 (l ++ tab2 (nx + 1) ny (xRec2 nx)) := by
  obtain ⟨s', e, r⟩ := loop2_emit (fun s l => FaceCur.Rep s nf 2 l) nf (a := nx + 1) (b := ny)
    (body := fun i j s => s.emit 2 (xRec2 nx i j).1 (xRec2 nx i j).2) (xRec2 nx)
    (fun i j _ _ s l h hc => FaceCur.emit_rep _ rfl rfl h hc) h hc
  refine ⟨s', ?_, r⟩
  rw [← e]
  unfold xFaceLoop2 xRec2
  simp only [sides_eq _ _ hx, cell2, node2]

theorem yFaceLoop2_ok {nf : Nat} (hy : 0 < ny) {s : FaceCur} {l : List (List Nat × List Int)} (h : s.Rep nf 2 l) (hc : l.length + nx * (ny + 1) ≤ nf) :
    ∃ s', yFaceLoop2 nx ny s = .ok s' ∧ s'.Rep nf 2 (l ++ tab2 nx (ny + 1) (yRec2 nx ny)) := by
  obtain ⟨s', e, r⟩ := loop2_emit (fun s l => FaceCur.Rep s nf 2 l) nf (a := nx) (b := ny + 1)
    (body := fun i j s => s.emit 2 (yRec2 nx ny i j).1 (yRec2 nx ny i j).2) (yRec2 nx ny)
    (fun i j _ _ s l h hc => FaceCur.emit_rep _ rfl rfl h hc) h hc
  refine ⟨s', ?_, r⟩
  rw [← e]
  unfold yFaceLoop2 yRec2
  simp only [sides_eq _ _ hy, cell2, node2]

theorem tagLoop2_ok {tag : List Nat} (ht : tag.length = nx * ny * 4) :
    tagLoop2 nx ny tag = .ok ((List.range (nx * ny)).flatMap fun _ => [0, 2, 1, 3]) := by
  unfold tagLoop2
  refine tag_loop rfl ?_ ht
  intro k t pre hp hl hk htake
  have hp : pre.length = k * 4 := hp
  have hl : t.length = nx * ny * 4 := hl
  have hkd : (k + 1) * 4 ≤ nx * ny * 4 := Nat.mul_le_mul_right 4 hk
  obtain ⟨t1, e1, l1, h1⟩ := wr_elem (e := 0) htake hl (by omega)
  obtain ⟨t2, e2, l2, h2⟩ := wr_elem (e := 2) h1 l1 (by simp; omega)
  obtain ⟨t3, e3, l3, h3⟩ := wr_elem (e := 1) h2 l2 (by simp; omega)
  obtain ⟨t4, e4, l4, h4⟩ := wr_elem (e := 3) h3 l3 (by simp; omega)
  simp only [List.length_append, List.length_singleton, hp, Nat.add_assoc, Nat.reduceAdd] at e1 e2 e3 e4
  refine ⟨t4, ?_, l4, by simpa using h4⟩
  simp only [Nat.add_zero]
  rw [e1, bind_ok, e2, bind_ok, e3, bind_ok, e4]

theorem topology2d {junk : Junk} (hx : 0 < nx) (hy : 0 < ny) :
    fillTopology2d (allocateCartGrid2d junk nx ny) = .ok { allocateCartGrid2d junk nx ny with
      cellFaces := (tab2 nx ny (cellRec2 nx ny)).flatMap id
      cellFacepos := (List.range (nx * ny + 1)).map (fun i => 4 * i)
      cellFacetag := (List.range (nx * ny)).flatMap fun _ => [0, 2, 1, 3]
      faceNodes := (faceRecs2 nx ny).flatMap (·.1)
      faceNodepos := (List.range ((nx + 1) * ny + nx * (ny + 1) + 1)).map (fun i => 2 * i)
      faceCells := (faceRecs2 nx ny).flatMap (·.2) } := by
  generalize hnf : (nx + 1) * ny + nx * (ny + 1) = nf
  obtain ⟨cp, ecp, rcp⟩ := posRep_start (buf := (allocateCartGrid2d junk nx ny).cellFacepos) (n := nx * ny) (d := 4)
    (by simp [allocateCartGrid2d, allocateCartGrid, allocateGrid])
  obtain ⟨fp, efp, rfp⟩ := posRep_start (buf := (allocateCartGrid2d junk nx ny).faceNodepos) (n := nf) (d := 2)
    (by simp [allocateCartGrid2d, allocateCartGrid, allocateGrid, hnf])
  obtain ⟨c, ec, rc⟩ := cellLoop2_ok (nx := nx) (ny := ny) (s := ⟨⟨(allocateCartGrid2d junk nx ny).cellFaces, 0⟩, ⟨cp, 0⟩⟩)
    ⟨⟨rfl, by simp [allocateCartGrid2d, allocateCartGrid, allocateGrid], rfl⟩, rcp, by simp⟩
  obtain ⟨s1, e1, r1⟩ := xFaceLoop2_ok (nx := nx) (ny := ny) (nf := nf) hx (l := [])
    (s := ⟨⟨(allocateCartGrid2d junk nx ny).faceNodes, 0⟩, ⟨fp, 0⟩, ⟨(allocateCartGrid2d junk nx ny).faceCells, 0⟩⟩)
    ⟨⟨rfl, by simp [allocateCartGrid2d, allocateCartGrid, allocateGrid, hnf], rfl⟩, rfp,
      ⟨rfl, by simp [allocateCartGrid2d, allocateCartGrid, allocateGrid, hnf], rfl⟩, by simp⟩ (by simp only [List.length_nil]; omega)
  rw [List.nil_append] at r1
  obtain ⟨s3, e3, r3⟩ := yFaceLoop2_ok (nx := nx) (ny := ny) hy r1 (by rw [length_tab2]; omega)
  have etag := tagLoop2_ok (nx := nx) (ny := ny) (tag := (allocateCartGrid2d junk nx ny).cellFacetag)
    (by simp [allocateCartGrid2d, allocateCartGrid, allocateGrid])
  have hlen3 : (faceRecs2 nx ny).length = nf := by
    unfold faceRecs2
    rw [List.length_append, length_tab2, length_tab2, hnf]
  obtain ⟨rc1, rc2, rc3⟩ := rc
  obtain ⟨r31, r32, r33, r34⟩ := r3
  have hc1 := Cur.rep_full rc1 (by rw [length_flatMap_const (f := id) (d := 4) rc3, length_tab2])
  rw [length_tab2] at rc2
  have hc2 := Cur.posRep_full rc2 rfl
  unfold faceRecs2 at hlen3
  have hf1 := Cur.rep_full r31 (by rw [length_flatMap_const (d := 2) (fun x hx => (r34 x hx).1), hlen3])
  have hf2 := Cur.posRep_full r32 (by rw [hlen3])
  have hf3 := Cur.rep_full r33 (by rw [length_flatMap_const (d := 2) (fun x hx => (r34 x hx).2), hlen3, Nat.mul_comm])
  rw [hlen3] at hf2
  unfold fillTopology2d
  have hd : (allocateCartGrid2d junk nx ny).cartdims = (nx, ny, 1) := rfl
  simp only [hd]
  rw [ecp, bind_ok, ec, bind_ok, etag, bind_ok, efp, bind_ok, e1, bind_ok, e3, bind_ok, hc1, hc2, hf1, hf2, hf3]
  rfl

theorem faces2_x {β : Type _} {rx ry : Nat → Nat → β} {i j : Nat} (hi : i ≤ nx) (hj : j < ny) :
    (tab2 (nx + 1) ny rx ++ tab2 nx (ny + 1) ry)[xface2 nx i j]? = some (rx i j) := by
  have := idx2_lt (a := nx + 1) (by omega : i < nx + 1) hj
  unfold xface2
  rw [List.getElem?_append_left (by rw [length_tab2]; exact this), getElem?_tab2 _ (by omega) hj]

theorem faces2_y {β : Type _} {rx ry : Nat → Nat → β} {i j : Nat} (hi : i < nx) (hj : j ≤ ny) :
    (tab2 (nx + 1) ny rx ++ tab2 nx (ny + 1) ry)[yface2 nx ny i j]? = some (ry i j) := by
  unfold yface2
  rw [List.getElem?_append_right (by rw [length_tab2]; omega), length_tab2, Nat.add_sub_cancel_left, getElem?_tab2 _ hi (by omega)]

theorem face2_cases {f : Nat} (h : f < (nx + 1) * ny + nx * (ny + 1)) :
    (∃ i j, i ≤ nx ∧ j < ny ∧ f = xface2 nx i j) ∨ ∃ i j, i < nx ∧ j ≤ ny ∧ f = yface2 nx ny i j := by
  by_cases h1 : f < (nx + 1) * ny
  · left
    obtain ⟨i, j, hi, hj, e⟩ := idx2_surj h1
    exact ⟨i, j, by omega, hj, e⟩
  · right
    obtain ⟨i, j, hi, hj, e⟩ := idx2_surj (n := f - (nx + 1) * ny) (a := nx) (b := ny + 1) (by omega)
    exact ⟨i, j, hi, by omega, by unfold yface2; omega⟩

theorem xface2_lt {i j : Nat} (hi : i ≤ nx) (hj : j < ny) : xface2 nx i j < (nx + 1) * ny := idx2_lt (by omega) hj
theorem yface2_lt {i j : Nat} (hi : i < nx) (hj : j ≤ ny) : yface2 nx ny i j < (nx + 1) * ny + nx * (ny + 1) := by
  have := idx2_lt (b := ny + 1) hi (by omega : j < ny + 1)
  unfold yface2
  omega
theorem yface2_ge (i j : Nat) : (nx + 1) * ny ≤ yface2 nx ny i j := Nat.le_add_right _ _
theorem xface2_inj {i j i' j' : Nat} (hi : i ≤ nx) (hi' : i' ≤ nx) (h : xface2 nx i j = xface2 nx i' j') : i = i' ∧ j = j' :=
  idx2_inj (by omega) (by omega) h
theorem yface2_inj {i j i' j' : Nat} (hi : i < nx) (hi' : i' < nx) (h : yface2 nx ny i j = yface2 nx ny i' j') : i = i' ∧ j = j' := by
  unfold yface2 at h
  exact idx2_inj hi hi' (Nat.add_left_cancel h)
theorem cell2_inj {i j i' j' : Nat} (hi : i < nx) (hi' : i' < nx) (h : cell2 nx i j = cell2 nx i' j') : i = i' ∧ j = j' := idx2_inj hi hi' h

theorem isCart2d {G : Grid} (hnd : G.ndims = 2) (hdm : G.cartdims = (nx, ny, 1)) (hnc : G.nc = nx * ny)
    (hnf : G.nf = (nx + 1) * ny + nx * (ny + 1)) (hnn : G.nn = (nx + 1) * (ny + 1))
    (h1 : G.cellFaces = (tab2 nx ny (cellRec2 nx ny)).flatMap id)
    (h2 : G.cellFacepos = (List.range (nx * ny + 1)).map (fun i => 4 * i))
    (h3 : G.cellFacetag = (List.range (nx * ny)).flatMap fun _ => [0, 2, 1, 3])
    (h4 : G.faceNodes = (faceRecs2 nx ny).flatMap (·.1))
    (h5 : G.faceNodepos = (List.range ((nx + 1) * ny + nx * (ny + 1) + 1)).map (fun i => 2 * i))
    (h6 : G.faceCells = (faceRecs2 nx ny).flatMap (·.2)) : IsCart2d nx ny G := by
  have hrows : ∀ r ∈ faceRecs2 nx ny, r.1.length = 2 ∧ r.2.length = 2 := by
    intro r hr
    unfold faceRecs2 at hr
    rw [List.mem_append] at hr
    rcases hr with hr | hr
    · obtain ⟨i, j, _, _, rfl⟩ := mem_tab2 hr; exact ⟨rfl, rfl⟩
    · obtain ⟨i, j, _, _, rfl⟩ := mem_tab2 hr; exact ⟨rfl, rfl⟩
  have hlen : (faceRecs2 nx ny).length = (nx + 1) * ny + nx * (ny + 1) := by
    unfold faceRecs2
    rw [List.length_append, length_tab2, length_tab2]
  have hfr : ∀ {f : Nat} {nodes : List Nat} {a b : Int}, (faceRecs2 nx ny)[f]? = some (nodes, [a, b]) → G.FaceIs 2 f nodes a b :=
    fun hf => faceIs_of h4 (by rw [hlen]; exact h5) h6 hrows hf
  refine ⟨hnd, hdm, hnc, hnf, hnn, ?_, ?_, ?_⟩
  · intro i j hi hj
    refine cellIs_of (recs := tab2 nx ny (cellRec2 nx ny)) (d := 4) h1 (by rw [length_tab2]; exact h2) (by rw [length_tab2]; exact h3) ?_ rfl
      (getElem?_tab2 _ hi hj)
    intro r hr
    obtain ⟨i, j, _, _, rfl⟩ := mem_tab2 hr
    rfl
  · intro i j hi hj
    exact hfr (faces2_x hi hj)
  · intro i j hi hj
    exact hfr (faces2_y hi hj)

/-- The sides of the faces. -/
def sideRecs2 (nx ny : Nat) : List (Int × Int) :=
  tab2 (nx + 1) ny (fun i j => (before i (fun i => cell2 nx i j), after i nx (fun i => cell2 nx i j))) ++
  tab2 nx (ny + 1) (fun i j => (before j (fun j => cell2 nx i j), after j ny (fun j => cell2 nx i j)))

theorem flatMap_tab2 {β γ : Type _} (a b : Nat) (r : Nat → Nat → β) (f : β → List γ) :
    (tab2 a b r).flatMap f = (List.range b).flatMap fun j => (List.range a).flatMap fun i => f (r i j) := by
  unfold tab2
  simp only [List.flatMap_assoc, List.flatMap_singleton]

theorem sideRecs2_flat (nx ny : Nat) : (sideRecs2 nx ny).flatMap (fun s => [s.1, s.2]) = (faceRecs2 nx ny).flatMap (·.2) := by
  unfold sideRecs2 faceRecs2
  simp only [List.flatMap_append, flatMap_tab2]
  rfl

theorem valid2d {G : GridTopo} (hnc : G.nc = nx * ny) (hnf : G.nf = (nx + 1) * ny + nx * (ny + 1))
    (h1 : G.cellFaces = (tab2 nx ny (cellRec2 nx ny)).flatMap id)
    (h2 : G.cellFacepos = (List.range (nx * ny + 1)).map (fun i => 4 * i))
    (h6 : G.faceCells = (faceRecs2 nx ny).flatMap (·.2)) : G.Valid := by
  have hsl : (sideRecs2 nx ny).length = (nx + 1) * ny + nx * (ny + 1) := by
    unfold sideRecs2
    rw [List.length_append, length_tab2, length_tab2]
  have hcl : ∀ {i j}, i < nx → j < ny → cell2 nx i j < nx * ny := fun hi hj => idx2_lt hi hj
  refine valid_of_rows (rows := tab2 nx ny (cellRec2 nx ny)) (sides := sideRecs2 nx ny) (d := 4) (by rw [hnc, length_tab2])
    (by rw [hnf, hsl]) h1 (by rw [length_tab2]; exact h2) (by rw [sideRecs2_flat]; exact h6) ?_ ?_ ?_ ?_ ?_
  · intro r hr
    obtain ⟨i, j, _, _, rfl⟩ := mem_tab2 hr
    rfl
  · intro r hr
    obtain ⟨i, j, hi, hj, rfl⟩ := mem_tab2 hr
    have x1 := xface2_lt (nx := nx) (ny := ny) (i := i) (by omega) hj
    have x2 := xface2_lt (nx := nx) (ny := ny) (i := i + 1) (by omega) hj
    have y3 := yface2_ge (nx := nx) (ny := ny) i j
    have y4 := yface2_ge (nx := nx) (ny := ny) i (j + 1)
    have n1 : xface2 nx i j ≠ xface2 nx (i + 1) j := fun h => by
      have := (xface2_inj (by omega) (by omega) h).1; omega
    have n2 : yface2 nx ny i j ≠ yface2 nx ny i (j + 1) := fun h => by
      have := (yface2_inj hi hi h).2; omega
    unfold cellRec2
    simp only [List.nodup_cons, List.mem_cons, List.not_mem_nil, or_false, not_false_eq_true, List.nodup_nil, and_true, not_or]
    omega
  · intro r hr f hf
    obtain ⟨i, j, hi, hj, rfl⟩ := mem_tab2 hr
    rw [hsl]
    have x1 := xface2_lt (nx := nx) (ny := ny) (i := i) (by omega) hj
    have x2 := xface2_lt (nx := nx) (ny := ny) (i := i + 1) (by omega) hj
    have y1 := yface2_lt (nx := nx) (ny := ny) (j := j) hi (by omega)
    have y2 := yface2_lt (nx := nx) (ny := ny) (j := j + 1) hi (by omega)
    unfold cellRec2 at hf
    simp only [List.mem_cons, List.not_mem_nil, or_false] at hf
    omega
  · intro s hs
    rw [length_tab2]
    unfold sideRecs2 at hs
    rw [List.mem_append] at hs
    rcases hs with hs | hs
    · obtain ⟨i, j, hi, hj, rfl⟩ := mem_tab2 hs
      refine ⟨before_range (n := nx) (by omega) (fun q hq => hcl hq hj), after_range (by omega) (fun q hq => hcl hq hj),
        before_ne_after (p := i) (n := nx) (c := fun i => cell2 nx i j) (fun q hq h => ?_) (by omega)⟩
      have := (cell2_inj (nx := nx) (i := q) (i' := q + 1) (by omega) (by omega) h).1
      omega
    · obtain ⟨i, j, hi, hj, rfl⟩ := mem_tab2 hs
      refine ⟨before_range (n := ny) (by omega) (fun q hq => hcl hi hq), after_range (by omega) (fun q hq => hcl hi hq),
        before_ne_after (p := j) (n := ny) (c := fun j => cell2 nx i j) (fun q hq h => ?_) (by omega)⟩
      have := (cell2_inj (nx := nx) (j := q) (j' := q + 1) hi hi h).2
      omega
  · intro c f r a b hc hf
    have hclt := (List.getElem?_eq_some_iff.1 hc).1
    rw [length_tab2] at hclt
    obtain ⟨i, j, hi, hj, rfl⟩ := idx2_surj hclt
    rw [getElem?_tab2 _ hi hj] at hc
    cases hc
    have hflt := (List.getElem?_eq_some_iff.1 hf).1
    rw [hsl] at hflt
    change _ ↔ a = ((cell2 nx i j : Nat) : Int) ∨ b = ((cell2 nx i j : Nat) : Int)
    have x1 := xface2_lt (nx := nx) (ny := ny) (i := i) (by omega) hj
    have x2 := xface2_lt (nx := nx) (ny := ny) (i := i + 1) (by omega) hj
    have y3 := yface2_ge (nx := nx) (ny := ny) i j
    have y4 := yface2_ge (nx := nx) (ny := ny) i (j + 1)
    unfold cellRec2
    simp only [List.mem_cons, List.not_mem_nil, or_false]
    rcases face2_cases hflt with ⟨i', j', hi', hj', rfl⟩ | ⟨i', j', hi', hj', rfl⟩
    · unfold sideRecs2 at hf
      rw [faces2_x hi' hj'] at hf
      cases hf
      rw [before_eq, after_eq]
      have hlt := xface2_lt (nx := nx) (ny := ny) hi' hj'
      constructor
      · intro h
        rcases h with h | h | h | h
        · obtain ⟨rfl, rfl⟩ := xface2_inj hi' (by omega) h
          right; exact ⟨by omega, rfl⟩
        · omega
        · obtain ⟨rfl, rfl⟩ := xface2_inj hi' (by omega) h
          left; exact ⟨by omega, rfl⟩
        · omega
      · rintro (⟨h0, h⟩ | ⟨h0, h⟩)
        · obtain ⟨h1, rfl⟩ := cell2_inj (by omega) hi h
          right; right; left
          rw [show i + 1 = i' by omega]
        · obtain ⟨rfl, rfl⟩ := cell2_inj (by omega) hi h
          left; rfl
    · unfold sideRecs2 at hf
      rw [faces2_y hi' hj'] at hf
      cases hf
      rw [before_eq, after_eq]
      have hge := yface2_ge (nx := nx) (ny := ny) i' j'
      constructor
      · intro h
        rcases h with h | h | h | h
        · omega
        · obtain ⟨rfl, rfl⟩ := yface2_inj hi' hi h
          right; exact ⟨by omega, rfl⟩
        · omega
        · obtain ⟨rfl, rfl⟩ := yface2_inj hi' hi h
          left; exact ⟨by omega, rfl⟩
      · rintro (⟨h0, h⟩ | ⟨h0, h⟩)
        · obtain ⟨rfl, h1⟩ := cell2_inj hi' hi h
          right; right; right
          rw [show j + 1 = j' by omega]
        · obtain ⟨rfl, rfl⟩ := cell2_inj hi' hi h
          right; left; rfl

def cellGeoRec2 (X Y : Nat → Rat) (i j : Nat) : List Rat × Rat := ([mid X i, mid Y j], len X i * len Y j)
def xGeoRec2 (X Y : Nat → Rat) (i j : Nat) : List Rat × List Rat × Rat := ([len Y j, 0], [X i, mid Y j], len Y j)
def yGeoRec2 (X Y : Nat → Rat) (i j : Nat) : List Rat × List Rat × Rat := ([0, len X i], [mid X i, Y j], len X i)

def faceGeoRecs2 (nx ny : Nat) (X Y : Nat → Rat) : List (List Rat × List Rat × Rat) := tab2 (nx + 1) ny (xGeoRec2 X Y) ++ tab2 nx (ny + 1) (yGeoRec2 X Y)

theorem geometry2d {G : Grid} {nf : Nat} {x y : List Rat} {X Y : Nat → Rat} (hx : Holds x nx X) (hy : Holds y ny Y)
    (hd : G.cartdims = (nx, ny, 1)) (hnf : nf = (nx + 1) * ny + nx * (ny + 1))
    (h1 : G.cellCentroids.length = nx * ny * 2) (h2 : G.cellVolumes.length = nx * ny) (h3 : G.faceNormals.length = nf * 2)
    (h4 : G.faceCentroids.length = nf * 2) (h5 : G.faceAreas.length = nf) (h6 : G.nodeCoord.length = (nx + 1) * (ny + 1) * 2) :
    fillGeometry2d G x y = .ok { G with
      cellCentroids := (tab2 nx ny (cellGeoRec2 X Y)).flatMap (·.1)
      cellVolumes := (tab2 nx ny (cellGeoRec2 X Y)).map (·.2)
      faceNormals := (faceGeoRecs2 nx ny X Y).flatMap (·.1)
      faceCentroids := (faceGeoRecs2 nx ny X Y).flatMap (·.2.1)
      faceAreas := (faceGeoRecs2 nx ny X Y).map (·.2.2)
      nodeCoord := (tab2 (nx + 1) (ny + 1) (fun i j => [X i, Y j])).flatMap id } := by
  have hcell : ∃ s', cellGeoLoop2 nx ny x y ⟨⟨G.cellCentroids, 0⟩, ⟨G.cellVolumes, 0⟩⟩ = .ok s' ∧
      CellGeoCur.Rep s' (nx * ny) 2 ([] ++ tab2 nx ny (cellGeoRec2 X Y)) := by
    unfold cellGeoLoop2
    refine loop2_emit (fun s l => CellGeoCur.Rep s (nx * ny) 2 l) (nx * ny) (a := nx) (b := ny)
      (body := fun i j s => do
        let x0 ← rd x i
        let x1 ← rd x (i + 1)
        let y0 ← rd y j
        let y1 ← rd y (j + 1)
        s.emit [(x0 + x1) / 2, (y0 + y1) / 2] ((x1 - x0) * (y1 - y0))) (cellGeoRec2 X Y) ?_
      ⟨⟨rfl, h1, rfl⟩, ⟨rfl, h2, rfl⟩, by simp⟩ (by simp)
    intro i j hi hj s l h hc
    simp only [hx.rd (i := i) (by omega), hx.rd (i := i + 1) (by omega), hy.rd (i := j) (by omega), hy.rd (i := j + 1) (by omega), bind_ok]
    exact CellGeoCur.emit_rep (cellGeoRec2 X Y i j) rfl h hc
  obtain ⟨c, ec, rc⟩ := hcell
  rw [List.nil_append] at rc
  obtain ⟨rc1, rc2, rc3⟩ := rc
  have hxf : ∃ s', xFaceGeoLoop2 nx ny x y ⟨⟨G.faceNormals, 0⟩, ⟨G.faceCentroids, 0⟩, ⟨G.faceAreas, 0⟩⟩ = .ok s' ∧
      FaceGeoCur.Rep s' nf 2 ([] ++ tab2 (nx + 1) ny (xGeoRec2 X Y)) := by
    unfold xFaceGeoLoop2
    refine loop2_emit (fun s l => FaceGeoCur.Rep s nf 2 l) nf (a := nx + 1) (b := ny)
      (body := fun i j s => do
        let x0 ← rd x i
        let y0 ← rd y j
        let y1 ← rd y (j + 1)
        s.emit [y1 - y0, 0] [x0, (y0 + y1) / 2] (y1 - y0)) (xGeoRec2 X Y) ?_
      ⟨⟨rfl, h3, rfl⟩, ⟨rfl, h4, rfl⟩, ⟨rfl, h5, rfl⟩, by simp⟩ (by simp only [List.length_nil]; omega)
    intro i j hi hj s l h hc
    simp only [hx.rd (i := i) (by omega), hy.rd (i := j) (by omega), hy.rd (i := j + 1) (by omega), bind_ok]
    exact FaceGeoCur.emit_rep (xGeoRec2 X Y i j) rfl rfl h hc
  obtain ⟨s1, e1, r1⟩ := hxf
  rw [List.nil_append] at r1
  have hyf : ∃ s', yFaceGeoLoop2 nx ny x y s1 = .ok s' ∧
      FaceGeoCur.Rep s' nf 2 (tab2 (nx + 1) ny (xGeoRec2 X Y) ++ tab2 nx (ny + 1) (yGeoRec2 X Y)) := by
    unfold yFaceGeoLoop2
    refine loop2_emit (fun s l => FaceGeoCur.Rep s nf 2 l) nf (a := nx) (b := ny + 1)
      (body := fun i j s => do
        let x0 ← rd x i
        let x1 ← rd x (i + 1)
        let y0 ← rd y j
        s.emit [0, x1 - x0] [(x0 + x1) / 2, y0] (x1 - x0)) (yGeoRec2 X Y) ?_ r1 (by rw [length_tab2]; omega)
    intro i j hi hj s l h hc
    simp only [hx.rd (i := i) (by omega), hx.rd (i := i + 1) (by omega), hy.rd (i := j) (by omega), bind_ok]
    exact FaceGeoCur.emit_rep (yGeoRec2 X Y i j) rfl rfl h hc
  obtain ⟨s3, e3, r31, r32, r33, r34⟩ := hyf
  have hnode : ∃ s', nodeLoop2 nx ny x y ⟨G.nodeCoord, 0⟩ = .ok s' ∧
      coordRep 2 ((nx + 1) * (ny + 1)) s' ([] ++ tab2 (nx + 1) (ny + 1) (fun i j => [X i, Y j])) := by
    unfold nodeLoop2
    refine loop2_emit (coordRep 2 ((nx + 1) * (ny + 1))) ((nx + 1) * (ny + 1)) (a := nx + 1) (b := ny + 1)
      (body := fun i j s => do
        let x0 ← rd x i
        let y0 ← rd y j
        s.puts [x0, y0]) (fun i j => [X i, Y j]) ?_ ⟨⟨rfl, h6, rfl⟩, by simp⟩ (by simp)
    intro i j hi hj s l h hc
    simp only [hx.rd (i := i) (by omega), hy.rd (i := j) (by omega), bind_ok]
    exact coord_rep _ rfl h hc
  obtain ⟨n, en, rn⟩ := hnode
  rw [List.nil_append] at rn
  obtain ⟨rn1, rn2⟩ := rn
  have hlen3 : (faceGeoRecs2 nx ny X Y).length = nf := by
    unfold faceGeoRecs2
    rw [List.length_append, length_tab2, length_tab2, hnf]
  unfold faceGeoRecs2 at hlen3
  have g1 := Cur.rep_full rc1 (by rw [length_flatMap_const (d := 2) rc3, length_tab2])
  have g2 := Cur.rep_full rc2 (by rw [List.length_map, length_tab2])
  have g3 := Cur.rep_full r31 (by rw [length_flatMap_const (d := 2) (fun x hx => (r34 x hx).1), hlen3])
  have g4 := Cur.rep_full r32 (by rw [length_flatMap_const (d := 2) (fun x hx => (r34 x hx).2), hlen3])
  have g5 := Cur.rep_full r33 (by rw [List.length_map, hlen3])
  have g6 := Cur.rep_full rn1 (by rw [length_flatMap_const (f := id) (d := 2) rn2, length_tab2])
  unfold fillGeometry2d
  simp only [hd]
  rw [ec, bind_ok, e1, bind_ok, e3, bind_ok, en, bind_ok, g1, g2, g3, g4, g5, g6]
  rfl

theorem isBoxes2d {X Y : Nat → Rat} {G : Grid}
    (h1 : G.cellCentroids = (tab2 nx ny (cellGeoRec2 X Y)).flatMap (·.1))
    (h2 : G.cellVolumes = (tab2 nx ny (cellGeoRec2 X Y)).map (·.2))
    (h3 : G.faceNormals = (faceGeoRecs2 nx ny X Y).flatMap (·.1))
    (h4 : G.faceCentroids = (faceGeoRecs2 nx ny X Y).flatMap (·.2.1))
    (h5 : G.faceAreas = (faceGeoRecs2 nx ny X Y).map (·.2.2))
    (h6 : G.nodeCoord = (tab2 (nx + 1) (ny + 1) (fun i j => [X i, Y j])).flatMap id) : IsBoxes2d nx ny X Y G := by
  have hfr : ∀ r ∈ faceGeoRecs2 nx ny X Y, r.1.length = 2 ∧ r.2.1.length = 2 := by
    intro r hr
    unfold faceGeoRecs2 at hr
    rw [List.mem_append] at hr
    rcases hr with hr | hr
    · obtain ⟨i, j, _, _, rfl⟩ := mem_tab2 hr; exact ⟨rfl, rfl⟩
    · obtain ⟨i, j, _, _, rfl⟩ := mem_tab2 hr; exact ⟨rfl, rfl⟩
  refine ⟨?_, ?_, ?_, ?_, ?_⟩
  · intro i j hi hj
    refine cellGeo_of h1 h2 ?_ (getElem?_tab2 _ hi hj)
    intro r hr
    obtain ⟨i, j, _, _, rfl⟩ := mem_tab2 hr
    rfl
  · intro i j hi hj
    exact faceGeo_of h3 h4 h5 hfr (faces2_x hi hj)
  · intro i j hi hj
    exact faceGeo_of h3 h4 h5 hfr (faces2_y hi hj)
  · intro i j hi hj
    rw [h6]
    refine slice_flatMap_const (f := id) ?_ (getElem?_tab2 (fun i j => [X i, Y j]) (by omega) (by omega))
    intro r hr
    obtain ⟨i, j, _, _, rfl⟩ := mem_tab2 hr
    rfl
  · rw [h2, List.length_map, length_tab2]

theorem volumes2d (nx ny : Nat) (X Y : Nat → Rat) :
    ((tab2 nx ny (cellGeoRec2 X Y)).map (·.2)).sum = (X nx - X 0) * (Y ny - Y 0) := by
  have : (tab2 nx ny (cellGeoRec2 X Y)).map (·.2) = (tab2 nx ny (cellGeoRec2 X Y)).flatMap (fun r => [r.2]) := by
    rw [List.map_eq_flatMap]
  rw [this, flatMap_tab2]
  simp only [sum_flatMap, cellGeoRec2, List.sum_singleton]
  simp only [sum_range_mul, sum_mul_range]
  rw [show (List.range nx).map (fun a => len X a) = (List.range nx).map (len X) from rfl,
    show (List.range ny).map (fun a => len Y a) = (List.range ny).map (len Y) from rfl, sum_len, sum_len]

end two

end Opm.Cart
