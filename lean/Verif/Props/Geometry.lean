import Verif.Proofs.Geometry
/-!
# Normals, areas, volumes and centroids
-/

namespace Opm.Geometry
open Opm V3

/-! ### Faces -/

theorem faceSum_eq (sqrt : Rat → Rat) (x : V3) (l : List (V3 × V3)) (s : FaceSum) : l.foldl (FaceSum.add sqrt x) s =
    ⟨s.area + (l.map (fun e => 1 / 2 * norm sqrt (cross e.1 e.2))).sum, s.n + (l.map (fun e => cross e.1 e.2)).sum,
      s.c + (l.map (fun e => smul (1 / 2 * norm sqrt (cross e.1 e.2)) (x + smul (2 / 3 * (1 / 2)) (e.1 + e.2)))).sum⟩ := by
  induction l generalizing s with
  | nil => simp
  | cons e l ih =>
    rw [List.foldl_cons, ih]
    simp only [FaceSum.add, List.map_cons, List.sum_cons, add_assoc]

/-- Area of the triangle of a side and the mean of the corners. -/
def triArea (sqrt : Rat → Rat) (pts : List V3) (e : V3 × V3) : Rat := 1 / 2 * norm sqrt (cross (e.1 - centre pts) (e.2 - centre pts))

/-- The normal of a face is its vector area; its area is that of the triangles around the mean of its corners; its centroid is the mean of those of the triangles, weighted by area. -/
theorem face_geom {sqrt : Rat → Rat} {pts : List V3} (h : pts ≠ []) (ha : ((edges pts).map (triArea sqrt pts)).sum ≠ 0) : ∃ c, faceGeom sqrt pts = .ok (vectorArea pts, c, ((edges pts).map (triArea sqrt pts)).sum) ∧
    smul ((edges pts).map (triArea sqrt pts)).sum c = ((edges pts).map (fun e => smul (triArea sqrt pts e) (smul (1 / 3) (centre pts + e.1 + e.2)))).sum := by
  unfold faceGeom
  rw [mean_eq h, bind_ok]
  dsimp only
  rw [fan_edges h, faceSum_eq]
  simp only [List.map_map, zero_add, Function.comp_def]
  have e : ((edges pts).map (fun e => 1 / 2 * norm sqrt (cross (e.1 - centre pts) (e.2 - centre pts)))).sum = ((edges pts).map (triArea sqrt pts)).sum := rfl
  rw [e, if_neg ha, sum_cross, V3.smul_smul', show (1 / 2 : Rat) * 2 = 1 by norm_num, V3.one_smul']
  refine ⟨_, rfl, ?_⟩
  rw [V3.smul_smul', mul_one_div_cancel ha, V3.one_smul']
  congr 2
  funext e
  unfold triArea
  generalize 1 / 2 * norm sqrt (cross (e.1 - centre pts) (e.2 - centre pts)) = k
  ext <;> simp only [smul_x, smul_y, smul_z, add_x, add_y, add_z, sub_x, sub_y, sub_z] <;> ring

/-- A face without corners, or whose triangles all have no area, has no centroid. -/
theorem face_geom_undefined {sqrt : Rat → Rat} {pts : List V3} (h : pts = [] ∨ ((edges pts).map (triArea sqrt pts)).sum = 0) : faceGeom sqrt pts = .error .nonFinite := by
  by_cases h0 : pts = []
  · subst h0
    rfl
  · unfold faceGeom
    rw [mean_eq h0, bind_ok]
    dsimp only
    rw [fan_edges h0, faceSum_eq]
    simp only [List.map_map, zero_add, Function.comp_def]
    exact if_pos (h.resolve_left h0)

/-- Points of a plane. -/
def Plane (pts : List V3) : Prop := ∃ o u v : V3, ∀ p ∈ pts, ∃ s t, p = o + smul s u + smul t v

/-- The normal of a plane face is perpendicular to it. -/
theorem normal_perpendicular {pts : List V3} (h : Plane pts) {p q : V3} (hp : p ∈ pts) (hq : q ∈ pts) : dot (vectorArea pts) (p - q) = 0 := by
  obtain ⟨o, u, v, h⟩ := h
  have key : ∀ d : V3, (∃ s t, d = smul s u + smul t v) → dot (smul 2 (vectorArea pts)) d = 0 := by
    rintro d ⟨s, t, rfl⟩
    rw [← sum_cross pts o, V3.dot_sum, List.map_map]
    refine List.sum_eq_zero fun x hx => ?_
    obtain ⟨e, he, rfl⟩ := List.mem_map.1 hx
    have m1 : e.1 ∈ pts ∧ e.2 ∈ pts := by
      have h2 : e.2 ∈ pts := by
        unfold edges at he
        split at he
        · cases he
        · exact (List.of_mem_zip he).2
      refine ⟨?_, h2⟩
      unfold edges at he
      split at he
      · cases he
      · next p hp =>
        rcases List.mem_cons.1 (List.of_mem_zip he).1 with k | k
        · rw [k]; exact List.mem_of_getLast? hp
        · exact k
    obtain ⟨a, b, e1⟩ := h _ m1.1
    obtain ⟨a', b', e2⟩ := h _ m1.2
    simp only [Function.comp, e1, e2, dot, cross_x, cross_y, cross_z, sub_x, sub_y, sub_z, add_x, add_y, add_z, smul_x, smul_y, smul_z]
    ring
  obtain ⟨a, b, e1⟩ := h p hp
  obtain ⟨a', b', e2⟩ := h q hq
  have := key (p - q) ⟨a - a', b - b', by rw [e1, e2]; ext <;> simp <;> ring⟩
  simp only [dot, smul_x, smul_y, smul_z] at this ⊢
  linarith

/-- `sqrt` gives roots of the squares which occur. -/
def Roots (sqrt : Rat → Rat) (pts : List V3) : Prop := ∀ e ∈ edges pts, 0 ≤ triArea sqrt pts e ∧
  4 * triArea sqrt pts e ^ 2 = dot (cross (e.1 - centre pts) (e.2 - centre pts)) (cross (e.1 - centre pts) (e.2 - centre pts))

theorem cauchy (a b : V3) : dot a b ^ 2 ≤ dot a a * dot b b := by
  have : dot a a * dot b b - dot a b ^ 2 = (a.x * b.y - a.y * b.x) ^ 2 + (a.x * b.z - a.z * b.x) ^ 2 + (a.y * b.z - a.z * b.y) ^ 2 := by
    simp only [dot]
    ring
  nlinarith [sq_nonneg (a.x * b.y - a.y * b.x), sq_nonneg (a.x * b.z - a.z * b.x), sq_nonneg (a.y * b.z - a.z * b.y)]

/-- The area is never less than the length of the normal. -/
theorem area_ge_normal {sqrt : Rat → Rat} {pts : List V3} (hr : Roots sqrt pts) : 0 ≤ ((edges pts).map (triArea sqrt pts)).sum ∧ dot (vectorArea pts) (vectorArea pts) ≤ ((edges pts).map (triArea sqrt pts)).sum ^ 2 := by
  have key : ∀ l : List (V3 × V3), (∀ e ∈ l, e ∈ edges pts) → 0 ≤ (l.map (triArea sqrt pts)).sum ∧
      dot (l.map (fun e => cross (e.1 - centre pts) (e.2 - centre pts))).sum (l.map (fun e => cross (e.1 - centre pts) (e.2 - centre pts))).sum ≤ 4 * (l.map (triArea sqrt pts)).sum ^ 2 := by
    intro l
    induction l with
    | nil => intro _; simp [dot]
    | cons e l ih =>
      intro hm
      obtain ⟨i1, i2⟩ := ih fun e he => hm e (List.mem_cons_of_mem _ he)
      obtain ⟨r1, r2⟩ := hr e (hm e List.mem_cons_self)
      simp only [List.map_cons, List.sum_cons]
      generalize (l.map (triArea sqrt pts)).sum = A at *
      generalize (l.map (fun e => cross (e.1 - centre pts) (e.2 - centre pts))).sum = N at *
      generalize cross (e.1 - centre pts) (e.2 - centre pts) = w at *
      generalize triArea sqrt pts e = r at *
      refine ⟨by linarith, ?_⟩
      have c := cauchy w N
      have hN : 0 ≤ dot N N := by simp only [dot]; nlinarith [mul_self_nonneg N.x, mul_self_nonneg N.y, mul_self_nonneg N.z]
      have hw : dot w N ≤ 4 * A * r := by
        refine le_of_sq_le_sq' ?_ (by positivity)
        calc dot w N ^ 2 ≤ dot w w * dot N N := c
          _ ≤ (4 * r ^ 2) * (4 * A ^ 2) := by rw [← r2]; exact mul_le_mul_of_nonneg_left i2 (by positivity)
          _ = (4 * A * r) ^ 2 := by ring
      have e1 : dot (w + N) (w + N) = dot w w + 2 * dot w N + dot N N := by simp only [dot, add_x, add_y, add_z]; ring
      rw [e1, ← r2]
      nlinarith
  obtain ⟨k1, k2⟩ := key (edges pts) fun _ h => h
  refine ⟨k1, ?_⟩
  rw [sum_cross] at k2
  simp only [dot, smul_x, smul_y, smul_z] at k2 ⊢
  linarith
where
  le_of_sq_le_sq' {a b : Rat} (h : a ^ 2 ≤ b ^ 2) (hb : 0 ≤ b) : a ≤ b := by
    by_contra hc
    rw [not_le] at hc
    nlinarith

/-- Plane faces which can be seen from the mean of their corners: the area is the length of the normal. -/
theorem area_eq_normal {sqrt : Rat → Rat} {pts : List V3} (hr : Roots sqrt pts) {d : V3} (hd : ∀ e ∈ edges pts, ∃ k, 0 ≤ k ∧ cross (e.1 - centre pts) (e.2 - centre pts) = smul k d) :
    dot (vectorArea pts) (vectorArea pts) = ((edges pts).map (triArea sqrt pts)).sum ^ 2 := by
  have hD : 0 ≤ dot d d := by simp only [dot]; nlinarith [mul_self_nonneg d.x, mul_self_nonneg d.y, mul_self_nonneg d.z]
  have key : ∀ l : List (V3 × V3), (∀ e ∈ l, e ∈ edges pts) → 0 ≤ (l.map (triArea sqrt pts)).sum ∧ ∃ K, 0 ≤ K ∧ (l.map (fun e => cross (e.1 - centre pts) (e.2 - centre pts))).sum = smul K d ∧
      K ^ 2 * dot d d = 4 * (l.map (triArea sqrt pts)).sum ^ 2 := by
    intro l
    induction l with
    | nil => intro _; exact ⟨by simp, 0, le_rfl, by ext <;> simp, by simp⟩
    | cons e l ih =>
      intro hm
      obtain ⟨i1, K, K0, i2, i3⟩ := ih fun e he => hm e (List.mem_cons_of_mem _ he)
      obtain ⟨r1, r2⟩ := hr e (hm e List.mem_cons_self)
      obtain ⟨k, k0, hk⟩ := hd e (hm e List.mem_cons_self)
      simp only [List.map_cons, List.sum_cons]
      rw [i2]
      rw [hk] at r2 ⊢
      generalize (l.map (triArea sqrt pts)).sum = A at *
      generalize triArea sqrt pts e = r at *
      refine ⟨by linarith, k + K, by linarith, by ext <;> simp <;> ring, ?_⟩
      have r3 : 4 * r ^ 2 = k ^ 2 * dot d d := by rw [r2]; simp only [dot, smul_x, smul_y, smul_z]; ring
      have cross' : K * k * dot d d = 4 * A * r := by
        have e1 : (K * k * dot d d) ^ 2 = (4 * A * r) ^ 2 := by
          calc (K * k * dot d d) ^ 2 = (K ^ 2 * dot d d) * (k ^ 2 * dot d d) := by ring
            _ = (4 * A * r) ^ 2 := by rw [i3, ← r3]; ring
        exact le_antisymm (area_ge_normal.le_of_sq_le_sq' e1.le (by positivity)) (area_ge_normal.le_of_sq_le_sq' e1.ge (by positivity))
      calc (k + K) ^ 2 * dot d d = k ^ 2 * dot d d + 2 * (K * k * dot d d) + K ^ 2 * dot d d := by ring
        _ = 4 * (r + A) ^ 2 := by rw [cross', i3, ← r3]; ring
  obtain ⟨_, K, _, k2, k3⟩ := key (edges pts) fun _ h => h
  rw [sum_cross] at k2
  have : dot (smul 2 (vectorArea pts)) (smul 2 (vectorArea pts)) = K ^ 2 * dot d d := by
    rw [k2]
    simp only [dot, smul_x, smul_y, smul_z]
    ring
  rw [k3] at this
  simp only [dot, smul_x, smul_y, smul_z] at this ⊢
  linarith

/-! ### Cells -/

/-- The outward normals of a closed cell add up to zero. -/
theorem closed_normals {fs : List CellFace} (h : Closed fs) : (fs.map CellFace.out).sum = 0 := by
  have key : ∀ pr : V3 →+ Rat, (∀ a : V3, ∀ r, pr (smul r a) = r * pr a) → pr (fs.map CellFace.out).sum = 0 := by
    intro pr hpr
    have hz := h.sum_zero (f := fun e => pr (cross e.1 e.2)) (fun e => by
      rw [← map_neg]
      congr 1
      ext <;> simp <;> ring)
    rw [outward_sum (fun e => by rw [← map_neg]; congr 1; ext <;> simp <;> ring)] at hz
    rw [map_list_sum, List.map_map]
    have : (pr ∘ CellFace.out) = fun c => 1 / 2 * (if c.first then ((edges c.pts).map (fun e => pr (cross e.1 e.2))).sum else -((edges c.pts).map (fun e => pr (cross e.1 e.2))).sum) := by
      funext c
      have hv : pr (vectorArea c.pts) = 1 / 2 * ((edges c.pts).map (fun e => pr (cross e.1 e.2))).sum := by
        rw [vectorArea, hpr, map_list_sum, List.map_map]
        rfl
      unfold Function.comp CellFace.out
      split
      · rw [hv]
      · rw [map_neg, hv]; ring
    rw [this, sum_mul_map, hz, mul_zero]
  have hx := key ⟨⟨V3.x, rfl⟩, fun _ _ => rfl⟩ (fun _ _ => rfl)
  have hy := key ⟨⟨V3.y, rfl⟩, fun _ _ => rfl⟩ (fun _ _ => rfl)
  have hz := key ⟨⟨V3.z, rfl⟩, fun _ _ => rfl⟩ (fun _ _ => rfl)
  exact V3.ext hx hy hz

theorem cellSum_eq (xcell x : V3) (f : CellFace) (l : List (V3 × V3)) (s : CellSum) : l.foldl (CellSum.add xcell x f) s =
    ⟨s.volume + (l.map (tetVolume xcell x f)).sum, s.c + (l.map (fun e => smul (tetVolume xcell x f e * 3 / 4) (x + smul (2 / 3 * (1 / 2)) (e.1 + e.2) - xcell))).sum⟩ := by
  induction l generalizing s with
  | nil => simp
  | cons e l ih =>
    rw [List.foldl_cons, ih]
    simp only [CellSum.add, List.map_cons, List.sum_cons, add_assoc]

/-- Signed volume of a tetrahedron with a vertex. -/
def vol (o : V3) (t : V3 × V3 × V3) : Rat := det (t.1 - o) (t.2.1 - o) (t.2.2 - o) / 6

theorem face_step {o : V3} {f : CellFace} (hp : f.pts ≠ []) (hu : Unfolded f) (s : CellSum) : s.face o f = .ok
    ⟨s.volume + ((triangles [f]).map (vol o)).sum, s.c + ((triangles [f]).map (fun t => smul (vol o t) (smul (1 / 4) (t.1 + t.2.1 + t.2.2 + o) - o))).sum⟩ := by
  unfold CellSum.face
  rw [mean_eq hp, bind_ok, fan_edges hp, cellSum_eq]
  simp only [triangles, List.flatMap_cons, List.flatMap_nil, List.append_nil, List.map_map]
  have tv : ∀ e ∈ edges f.pts, tetVolume o (centre f.pts) f (e.1 - centre f.pts, e.2 - centre f.pts) = vol o (if f.first then (centre f.pts, e.1, e.2) else (centre f.pts, e.2, e.1)) := fun e he => by
    unfold tetVolume
    dsimp only
    rw [if_neg (not_lt.2 (hu e he))]
    cases f.first
    · simp only [Bool.false_eq_true, if_false, vol, det, dot, cross_x, cross_y, cross_z, sub_x, sub_y, sub_z]; ring
    · simp only [if_true, vol, det, dot, cross_x, cross_y, cross_z, sub_x, sub_y, sub_z]; ring
  congr 2
  · congr 2
    exact List.map_congr_left fun e he => tv e he
  · congr 2
    refine List.map_congr_left fun e he => ?_
    dsimp only [Function.comp]
    rw [tv e he]
    generalize vol o (if f.first then (centre f.pts, e.1, e.2) else (centre f.pts, e.2, e.1)) = V
    cases f.first <;> (ext <;> simp <;> ring)

theorem triangles_cons (f : CellFace) (fs : List CellFace) : triangles (f :: fs) = triangles [f] ++ triangles fs := by
  simp [triangles]

theorem cell_sums {o : V3} {fs : List CellFace} (hp : ∀ f ∈ fs, f.pts ≠ []) (hu : ∀ f ∈ fs, Unfolded f) (s : CellSum) : fs.foldlM (CellSum.face o) s = .ok
    ⟨s.volume + ((triangles fs).map (vol o)).sum, s.c + ((triangles fs).map (fun t => smul (vol o t) (smul (1 / 4) (t.1 + t.2.1 + t.2.2 + o) - o))).sum⟩ := by
  induction fs generalizing s with
  | nil => simp [triangles, pure, Except.pure]
  | cons f fs ih =>
    rw [List.foldlM_cons, face_step (hp f List.mem_cons_self) (hu f List.mem_cons_self), bind_ok, ih (fun f hf => hp f (List.mem_cons_of_mem _ hf)) (fun f hf => hu f (List.mem_cons_of_mem _ hf)), triangles_cons f fs]
    simp only [List.map_append, List.sum_append, add_assoc]

/-- Sums over a closed surface of quantities which depend on the vertex by antisymmetric functions of the sides do not depend on it. -/
theorem apex {fs : List CellFace} (h : Closed fs) {Ho H : V3 × V3 × V3 → Rat} {G : V3 → V3 → Rat} (hG : ∀ p q, G q p = -G p q) (hH : ∀ a b c, Ho (a, b, c) = H (a, b, c) - (G b c + G c a + G a b)) :
    ((triangles fs).map Ho).sum = ((triangles fs).map H).sum := by
  have hb : ((triangles fs).map (fun t => G t.2.1 t.2.2 + G t.2.2 t.1 + G t.1 t.2.1)).sum = ((outwardEdges fs).map (fun e => G e.1 e.2)).sum := by
    rw [outward_sum (fun e => hG e.1 e.2)]
    clear h
    induction fs with
    | nil => rfl
    | cons f fs ih =>
      rw [triangles_cons, List.map_append, List.sum_append, ih, List.map_cons, List.sum_cons]
      congr 1
      simp only [triangles, List.flatMap_cons, List.flatMap_nil, List.append_nil, List.map_map]
      have ends := sum_ends f.pts (fun p => G (centre f.pts) p)
      cases f.first with
      | true =>
        simp only [if_true]
        rw [show ((fun t : V3 × V3 × V3 => G t.2.1 t.2.2 + G t.2.2 t.1 + G t.1 t.2.1) ∘ fun e : V3 × V3 => (centre f.pts, e.1, e.2)) = fun e => G e.1 e.2 + (-G (centre f.pts) e.2 + G (centre f.pts) e.1) from by
          funext e; dsimp only [Function.comp]; rw [hG (centre f.pts) e.2]; ring, sum_add_map, sum_add_map, sum_neg_map, ends]
        ring
      | false =>
        simp only [Bool.false_eq_true, if_false]
        rw [show ((fun t : V3 × V3 × V3 => G t.2.1 t.2.2 + G t.2.2 t.1 + G t.1 t.2.1) ∘ fun e : V3 × V3 => (centre f.pts, e.2, e.1)) = fun e => -G e.1 e.2 + (-G (centre f.pts) e.1 + G (centre f.pts) e.2) from by
          funext e; dsimp only [Function.comp]; rw [hG (centre f.pts) e.1, hG e.1 e.2]; ring, sum_add_map, sum_add_map, sum_neg_map, sum_neg_map, ends]
        ring
  rw [h.sum_zero (fun e => hG e.1 e.2)] at hb
  have : Ho = fun t => H t + -(G t.2.1 t.2.2 + G t.2.2 t.1 + G t.1 t.2.1) := by
    funext ⟨a, b, c⟩
    rw [hH]
    ring
  rw [this, sum_add_map, sum_neg_map, hb]
  ring

/-- The volume of a cell is the volume within its faces, and its centroid is the centre of gravity, whatever points are taken for the centroids of the faces. -/
theorem cell_geom {cs : List V3} (hc : cs ≠ []) {fs : List CellFace} (h : Closed fs) (hp : ∀ f ∈ fs, f.pts ≠ []) (hu : ∀ f ∈ fs, Unfolded f) (hv : volumeOf (triangles fs) ≠ 0) :
    ∃ c, cellGeom cs fs = .ok (c, volumeOf (triangles fs)) ∧ smul (volumeOf (triangles fs)) c = momentOf (triangles fs) := by
  unfold cellGeom
  rw [mean_eq hc, bind_ok, cell_sums hp hu, bind_ok]
  simp only [zero_add]
  generalize centre cs = o
  have e1 : ((triangles fs).map (vol o)).sum = volumeOf (triangles fs) := by
    refine apex h (G := fun p q => det o p q / 6) (fun p q => ?_) (fun a b c => ?_)
    · simp only [det, dot, cross_x, cross_y, cross_z]; ring
    · simp only [vol, det, dot, cross_x, cross_y, cross_z, sub_x, sub_y, sub_z]; ring
  rw [e1, if_neg hv]
  refine ⟨_, rfl, ?_⟩
  have e2 : ∀ pr : V3 →+ Rat, (∀ a : V3, ∀ r, pr (smul r a) = r * pr a) → (∀ o a b c, det a b c * pr o = det o b c * pr a + det a o c * pr b + det a b o * pr c) → pr (smul (volumeOf (triangles fs)) o + ((triangles fs).map (fun t => smul (vol o t) (smul (1 / 4) (t.1 + t.2.1 + t.2.2 + o) - o))).sum) = pr (momentOf (triangles fs)) := by
    intro pr hpr hcr
    rw [momentOf, map_add, hpr, ← e1, map_list_sum, map_list_sum, List.map_map, List.map_map, mul_comm, ← sum_mul_map, ← sum_add_map]
    refine apex h (G := fun p q => det o p q / 6 * (1 / 4 * (pr o + pr p + pr q))) (fun p q => ?_) (fun a b c => ?_)
    · simp only [det, dot, cross_x, cross_y, cross_z]; ring
    · simp only [Function.comp, hpr, map_sub, map_add]
      have k := hcr o a b c
      have d0 : det (a - o) (b - o) (c - o) = det a b c - det o b c - det a o c - det a b o := by simp only [det, dot, cross_x, cross_y, cross_z, sub_x, sub_y, sub_z]; ring
      have d1 : det o c a = det a o c := by simp only [det, dot, cross_x, cross_y, cross_z]; ring
      have d2 : det o a b = det a b o := by simp only [det, dot, cross_x, cross_y, cross_z]; ring
      simp only [vol]
      rw [d0, d1, d2]
      linear_combination k / 24
  rw [V3.smul_add', V3.smul_smul', mul_one_div_cancel hv, V3.one_smul']
  have hx := e2 ⟨⟨V3.x, rfl⟩, fun _ _ => rfl⟩ (fun _ _ => rfl) (fun o a b c => by change _ * o.x = _ * a.x + _ * b.x + _ * c.x; simp only [det, dot, cross_x, cross_y, cross_z]; ring)
  have hy := e2 ⟨⟨V3.y, rfl⟩, fun _ _ => rfl⟩ (fun _ _ => rfl) (fun o a b c => by change _ * o.y = _ * a.y + _ * b.y + _ * c.y; simp only [det, dot, cross_x, cross_y, cross_z]; ring)
  have hz := e2 ⟨⟨V3.z, rfl⟩, fun _ _ => rfl⟩ (fun _ _ => rfl) (fun o a b c => by change _ * o.z = _ * a.z + _ * b.z + _ * c.z; simp only [det, dot, cross_x, cross_y, cross_z]; ring)
  exact V3.ext hx hy hz

end Opm.Geometry
