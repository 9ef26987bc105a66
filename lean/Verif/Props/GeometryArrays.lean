import Verif.Props.Geometry
import Verif.Core.RowLoop
/-!
# The arrays of a grid
-/

namespace Opm.Geometry
open Opm V3

theorem get_some {a : List Rat} {k : Nat} (h : k < a.length) : a[k]? = some (a.getD k 0) := by
  rw [List.getD_eq_getElem?_getD, List.getElem?_eq_getElem h]; rfl

theorem entries_ok {pos idx : List Nat} {f : Nat} {l : List Nat} (h : RowOf pos idx f l) : entries pos idx f = .ok l := by
  obtain ⟨a, b, h1, h2, h3⟩ := h
  unfold slice at h3
  split at h3
  · next hab =>
    cases h3
    unfold entries
    rw [rd_of_getElem? h1, bind_ok, rd_of_getElem? h2, bind_ok]
    obtain ⟨t, e, rfl⟩ := forRange_inv (a := a) (b := b) (f := fun k l => do
      let n ← rd idx k
      .ok (l ++ [n])) (s := ([] : List Nat)) hab.1 (fun k (l : List Nat) => l = (idx.take k).drop a) (by rw [List.drop_of_length_le (by simp)]) (by
        rintro k l hk hb rfl
        rw [rd_ok (by omega), bind_ok]
        refine ⟨_, rfl, ?_⟩
        rw [List.take_succ_eq_append_getElem (by omega), List.drop_append_of_le_length (by simp; omega)])
    exact e
  · cases h3

theorem readV_ok {a : List Rat} {k : Nat} (h : 3 * k + 2 < a.length) : readV a k = .ok (pt a k) := by
  unfold readV
  rw [rd_of_getElem? (get_some (by omega)), bind_ok, rd_of_getElem? (get_some (by omega)), bind_ok, rd_of_getElem? (get_some (by omega)), bind_ok]
  rfl

theorem collect {α β : Type} {l : List α} {f : α → M β} {g : α → β} (h : ∀ x ∈ l, f x = .ok (g x)) : l.foldlM (fun s x => do
    let p ← f x
    .ok (s ++ [p])) [] = .ok (l.map g) := by
  have : ∀ s : List β, l.foldlM (fun s x => do
      let p ← f x
      .ok (s ++ [p])) s = .ok (s ++ l.map g) := by
    induction l with
    | nil => intro s; simp [pure, Except.pure]
    | cons x l ih =>
      intro s
      rw [List.foldlM_cons, h x List.mem_cons_self, bind_ok, bind_ok, ih fun y hy => h y (List.mem_cons_of_mem _ hy)]
      simp
  exact this []

theorem points_ok {a : List Rat} {l : List Nat} (h : ∀ n ∈ l, 3 * n + 2 < a.length) : points a l = .ok (l.map (pt a)) := collect fun n hn => readV_ok (h n hn)

theorem writeV_ok {a : List Rat} {k : Nat} {v : V3} (h : 3 * k + 2 < a.length) : ∃ b, writeV a k v = .ok b ∧ b.length = a.length ∧ pt b k = v ∧ ∀ j, j ≠ k → pt b j = pt a j := by
  unfold writeV
  rw [wr_ok (by omega), bind_ok, wr_ok (by simp; omega), bind_ok, wr_ok (by simp; omega)]
  refine ⟨_, rfl, by simp, ?_, fun j hj => ?_⟩
  · unfold pt
    simp only [List.getD_eq_getElem?_getD, List.getElem?_set, List.length_set]
    ext
    · simp [show 3 * k < a.length by omega]
    · simp [show 3 * k + 1 < a.length by omega]
    · simp [h]
  · unfold pt
    simp only [List.getD_eq_getElem?_getD, List.getElem?_set, List.length_set]
    ext
    · simp only; rw [if_neg (by omega), if_neg (by omega), if_neg (by omega)]
    · simp only; rw [if_neg (by omega), if_neg (by omega), if_neg (by omega)]
    · simp only; rw [if_neg (by omega), if_neg (by omega), if_neg (by omega)]

/-- Faces of three-dimensional grids. -/
theorem face_geometry {sqrt : Rat → Rat} {coords : List Rat} {nf : Nat} {nodepos facenodes : List Nat} {nodes : Nat → List Nat} (hrow : ∀ f, f < nf → RowOf nodepos facenodes f (nodes f)) (hne : ∀ f, f < nf → nodes f ≠ [])
    (hin : ∀ f, f < nf → ∀ n ∈ nodes f, 3 * n + 2 < coords.length) (harea : ∀ f, f < nf → ((edges ((nodes f).map (pt coords))).map (triArea sqrt ((nodes f).map (pt coords)))).sum ≠ 0) {r : FaceArrays} (h1 : r.normals.length = 3 * nf) (h2 : r.centroids.length = 3 * nf)
    (h3 : r.areas.length = nf) : ∃ t, faceGeometry sqrt coords nf nodepos facenodes r = .ok t ∧ t.normals.length = 3 * nf ∧ t.centroids.length = 3 * nf ∧ t.areas.length = nf ∧ ∀ f, f < nf →
      pt t.normals f = vectorArea ((nodes f).map (pt coords)) ∧ t.areas.getD f 0 = ((edges ((nodes f).map (pt coords))).map (triArea sqrt ((nodes f).map (pt coords)))).sum ∧
      smul (t.areas.getD f 0) (pt t.centroids f) = ((edges ((nodes f).map (pt coords))).map (fun e => smul (triArea sqrt ((nodes f).map (pt coords)) e) (smul (1 / 3) (centre ((nodes f).map (pt coords)) + e.1 + e.2)))).sum := by
  unfold faceGeometry
  obtain ⟨t, e, t1, t2, t3, t4⟩ := loop_inv (n := nf) (f := fun f (r : FaceArrays) => do
    let l ← entries nodepos facenodes f
    let pts ← points coords l
    let g ← faceGeom sqrt pts
    let n ← writeV r.normals f g.1
    let c ← writeV r.centroids f g.2.1
    let a ← wr r.areas f g.2.2
    .ok ⟨n, c, a⟩) (s := r) (P := fun m (t : FaceArrays) => t.normals.length = 3 * nf ∧ t.centroids.length = 3 * nf ∧ t.areas.length = nf ∧ ∀ f, f < m →
      pt t.normals f = vectorArea ((nodes f).map (pt coords)) ∧ t.areas.getD f 0 = ((edges ((nodes f).map (pt coords))).map (triArea sqrt ((nodes f).map (pt coords)))).sum ∧
      smul (t.areas.getD f 0) (pt t.centroids f) = ((edges ((nodes f).map (pt coords))).map (fun e => smul (triArea sqrt ((nodes f).map (pt coords)) e) (smul (1 / 3) (centre ((nodes f).map (pt coords)) + e.1 + e.2)))).sum)
    ⟨h1, h2, h3, by simp⟩ (by
      rintro f ⟨tn, tc, ta⟩ hf ⟨t1, t2, t3, t4⟩
      dsimp only at t1 t2 t3 t4
      obtain ⟨c, eg, hc⟩ := face_geom (sqrt := sqrt) (pts := (nodes f).map (pt coords)) (by simpa using hne f hf) (harea f hf)
      obtain ⟨n', en, n1, n2, n3⟩ := writeV_ok (a := tn) (k := f) (v := vectorArea ((nodes f).map (pt coords))) (by omega)
      obtain ⟨c', ec, c1, c2, c3⟩ := writeV_ok (a := tc) (k := f) (v := c) (by omega)
      rw [entries_ok (hrow f hf), bind_ok, points_ok (hin f hf), bind_ok, eg, bind_ok]
      dsimp only
      rw [en, bind_ok, ec, bind_ok, wr_ok (by omega), bind_ok]
      refine ⟨_, rfl, by dsimp only; omega, by dsimp only; omega, by simpa using t3, fun g hg => ?_⟩
      dsimp only
      rcases Nat.lt_succ_iff_lt_or_eq.1 hg with k | rfl
      · rw [n3 g (by omega), c3 g (by omega), show (ta.set f _).getD g 0 = ta.getD g 0 from by rw [List.getD_eq_getElem?_getD, List.getD_eq_getElem?_getD, List.getElem?_set, if_neg (by omega)]]
        exact t4 g k
      · rw [n2, c2, show ∀ v, (ta.set g v).getD g 0 = v from fun v => by rw [List.getD_eq_getElem?_getD, List.getElem?_set, if_pos rfl, if_pos (by omega)]; rfl]
        exact ⟨rfl, rfl, hc⟩)
  exact ⟨t, e, t1, t2, t3, t4⟩

/-- The faces of a cell, as the arrays describe them. -/
def facesOf (coords normals : List Rat) (nodes : Nat → List Nat) (neighbors : List Int) (c : Nat) (l : List Nat) : List CellFace :=
  l.map (fun f => ⟨(nodes f).map (pt coords), pt normals f, decide (neighbors[2 * f]? = some (c : Int))⟩)

/-- Cells of three-dimensional grids. -/
theorem cell_geometry {coords normals centroids : List Rat} {nf nc : Nat} {nodepos facenodes facepos cellfaces : List Nat} {neighbors : List Int} {nodes faces : Nat → List Nat} (hrow : ∀ f, f < nf → RowOf nodepos facenodes f (nodes f)) (hne : ∀ f, f < nf → nodes f ≠ [])
    (hin : ∀ f, f < nf → ∀ n ∈ nodes f, 3 * n + 2 < coords.length) (h1 : normals.length = 3 * nf) (h2 : centroids.length = 3 * nf) (h3 : neighbors.length = 2 * nf)
    (hcell : ∀ c, c < nc → RowOf facepos cellfaces c (faces c)) (hfne : ∀ c, c < nc → faces c ≠ []) (hfin : ∀ c, c < nc → ∀ f ∈ faces c, f < nf)
    (hclosed : ∀ c, c < nc → Closed (facesOf coords normals nodes neighbors c (faces c))) (hun : ∀ c, c < nc → ∀ f ∈ facesOf coords normals nodes neighbors c (faces c), Unfolded f)
    (hvol : ∀ c, c < nc → volumeOf (triangles (facesOf coords normals nodes neighbors c (faces c))) ≠ 0) {cc cv : List Rat} (h4 : cc.length = 3 * nc) (h5 : cv.length = nc) :
    ∃ t v, cellGeometry coords nodepos facenodes neighbors normals centroids nc facepos cellfaces (cc, cv) = .ok (t, v) ∧ t.length = 3 * nc ∧ v.length = nc ∧ ∀ c, c < nc →
      v.getD c 0 = volumeOf (triangles (facesOf coords normals nodes neighbors c (faces c))) ∧ smul (v.getD c 0) (pt t c) = momentOf (triangles (facesOf coords normals nodes neighbors c (faces c))) := by
  unfold cellGeometry
  obtain ⟨⟨t, v⟩, e, t1, v1, h⟩ := loop_inv (n := nc) (f := fun c (r : List Rat × List Rat) => do
    let l ← entries facepos cellfaces c
    let cs ← points centroids l
    let fs ← l.foldlM (fun s face => do
      let f ← readFace coords nodepos facenodes neighbors normals c face
      .ok (s ++ [f])) []
    let g ← cellGeom cs fs
    let cc ← writeV r.1 c g.1
    let cv ← wr r.2 c g.2
    .ok (cc, cv)) (s := (cc, cv)) (P := fun m (r : List Rat × List Rat) => r.1.length = 3 * nc ∧ r.2.length = nc ∧ ∀ c, c < m →
      r.2.getD c 0 = volumeOf (triangles (facesOf coords normals nodes neighbors c (faces c))) ∧ smul (r.2.getD c 0) (pt r.1 c) = momentOf (triangles (facesOf coords normals nodes neighbors c (faces c))))
    ⟨h4, h5, by simp⟩ (by
      rintro c ⟨t, v⟩ hc ⟨t1, v1, h⟩
      dsimp only at t1 v1 h
      have rf : ∀ f ∈ faces c, readFace coords nodepos facenodes neighbors normals c f = .ok ⟨(nodes f).map (pt coords), pt normals f, decide (neighbors[2 * f]? = some (c : Int))⟩ := fun f hf => by
        have hf' := hfin c hc f hf
        unfold readFace
        rw [entries_ok (hrow f hf'), bind_ok, points_ok (hin f hf'), bind_ok, readV_ok (by omega), bind_ok, rd_ok (by omega), bind_ok]
        simp [List.getElem?_eq_getElem (show 2 * f < neighbors.length by omega)]
      obtain ⟨g, eg, hg⟩ := cell_geom (cs := (faces c).map (pt centroids)) (by simpa using hfne c hc) (hclosed c hc) (fun f hf => by
        obtain ⟨k, hk, rfl⟩ := List.mem_map.1 hf
        simpa using hne k (hfin c hc k hk)) (hun c hc) (hvol c hc)
      obtain ⟨n', en, n1, n2, n3⟩ := writeV_ok (a := t) (k := c) (v := g) (by omega)
      rw [entries_ok (hcell c hc), bind_ok, points_ok (fun f hf => by have := hfin c hc f hf; omega), bind_ok, collect rf, bind_ok]
      rw [show (faces c).map (fun f => (⟨(nodes f).map (pt coords), pt normals f, decide (neighbors[2 * f]? = some (c : Int))⟩ : CellFace)) = facesOf coords normals nodes neighbors c (faces c) from rfl, eg, bind_ok]
      dsimp only
      rw [en, bind_ok, wr_ok (by omega), bind_ok]
      refine ⟨_, rfl, by dsimp only; omega, by simpa using v1, fun d hd => ?_⟩
      dsimp only
      rcases Nat.lt_succ_iff_lt_or_eq.1 hd with k | rfl
      · rw [n3 d (by omega), show (v.set c _).getD d 0 = v.getD d 0 from by rw [List.getD_eq_getElem?_getD, List.getD_eq_getElem?_getD, List.getElem?_set, if_neg (by omega)]]
        exact h d k
      · rw [n2, show ∀ x, (v.set d x).getD d 0 = x from fun x => by rw [List.getD_eq_getElem?_getD, List.getElem?_set, if_pos rfl, if_pos (by omega)]; rfl]
        exact ⟨rfl, hg⟩)
  exact ⟨t, v, e, t1, v1, h⟩

end Opm.Geometry
