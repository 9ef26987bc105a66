import Verif.Props.GeometryArrays
import Mathlib.Tactic.FinCases
import Mathlib.Algebra.Order.BigOperators.Group.List
/-!
# Tetrahedra, folded faces and two dimensions
-/

namespace Opm.Geometry
open Opm V3

theorem edges_map {α β : Type} (f : α → β) (l : List α) : edges (l.map f) = (edges l).map (fun e => (f e.1, f e.2)) := by
  unfold edges
  rw [List.getLast?_map]
  cases l.getLast? with
  | none => rfl
  | some p =>
    dsimp only [Option.map_some]
    rw [← List.map_cons, List.zip_map]
    rfl

/-- A cell is closed if that can be seen from the numbers of its nodes: each side is run through as often in one direction as in the other. -/
theorem closed_of_nodes {α : Type} (P : α → V3) (fs : List (List α × V3 × Bool)) (h : (fs.flatMap (fun f => if f.2.2 then edges f.1 else (edges f.1).map Prod.swap)).Perm ((fs.flatMap (fun f => if f.2.2 then edges f.1 else (edges f.1).map Prod.swap)).map Prod.swap)) :
    Closed (fs.map (fun f => ⟨f.1.map P, f.2.1, f.2.2⟩)) := by
  have e : outwardEdges (fs.map (fun f => ⟨f.1.map P, f.2.1, f.2.2⟩)) = (fs.flatMap (fun f => if f.2.2 then edges f.1 else (edges f.1).map Prod.swap)).map (fun e => (P e.1, P e.2)) := by
    clear h
    induction fs with
    | nil => rfl
    | cons f fs ih =>
      rw [List.map_cons, outwardEdges, List.flatMap_cons, List.flatMap_cons, List.map_append, ← ih]
      refine congrArg₂ _ ?_ rfl
      dsimp only
      rw [edges_map]
      cases f.2.2
      · simp only [Bool.false_eq_true, if_false, List.map_map]
        rfl
      · rfl
  unfold Closed
  rw [e]
  refine (h.map _).trans (List.Perm.of_eq ?_)
  rw [List.map_map, List.map_map]
  rfl

/-- Faces of the tetrahedron with given corners, seen from outside, with their normals. -/
def tetFaces (P : Nat → V3) : List CellFace := [[0, 2, 1], [0, 1, 3], [1, 2, 3], [0, 3, 2]].map (fun l => ⟨l.map P, vectorArea (l.map P), true⟩)

/-- The volume and the centroid of every tetrahedron are exact. -/
theorem tetrahedron (P : Nat → V3) {cs : List V3} (hc : cs ≠ []) (hd : det (P 1 - P 0) (P 2 - P 0) (P 3 - P 0) ≠ 0) :
    cellGeom cs (tetFaces P) = .ok (smul (1 / 4) (P 0 + P 1 + P 2 + P 3), det (P 1 - P 0) (P 2 - P 0) (P 3 - P 0) / 6) := by
  have e : tetFaces P = ([([0, 2, 1], vectorArea ([0, 2, 1].map P), true), ([0, 1, 3], vectorArea ([0, 1, 3].map P), true), ([1, 2, 3], vectorArea ([1, 2, 3].map P), true), ([0, 3, 2], vectorArea ([0, 3, 2].map P), true)] : List (List Nat × V3 × Bool)).map (fun f => ⟨f.1.map P, f.2.1, f.2.2⟩) := rfl
  have hcl : Closed (tetFaces P) := by
    rw [e]
    exact closed_of_nodes P _ (by simp only [List.flatMap_cons, List.flatMap_nil]; decide)
  have hun : ∀ f ∈ tetFaces P, Unfolded f := by
    intro f hf
    obtain ⟨l, hl, rfl⟩ := List.mem_map.1 hf
    have three : ∀ a b c : V3, Unfolded ⟨[a, b, c], vectorArea [a, b, c], true⟩ := by
      intro a b c e he
      have hw : cross (e.1 - centre [a, b, c]) (e.2 - centre [a, b, c]) = smul (2 / 3) (vectorArea [a, b, c]) := by
        have he' : e = (c, a) ∨ e = (a, b) ∨ e = (b, c) := by simpa [edges] using he
        rcases he' with rfl | rfl | rfl <;> (ext <;> simp [centre, vectorArea, edges] <;> ring)
      dsimp only
      rw [hw]
      simp only [dot, smul_x, smul_y, smul_z]
      nlinarith [mul_self_nonneg (vectorArea [a, b, c]).x, mul_self_nonneg (vectorArea [a, b, c]).y, mul_self_nonneg (vectorArea [a, b, c]).z]
    fin_cases hl <;> exact three _ _ _
  have hv : volumeOf (triangles (tetFaces P)) = det (P 1 - P 0) (P 2 - P 0) (P 3 - P 0) / 6 := by
    simp only [tetFaces, triangles, volumeOf, edges, centre, List.map_cons, List.map_nil, List.flatMap_cons, List.flatMap_nil, List.getLast?_cons_cons, List.getLast?_singleton, List.zip_cons_cons, List.zip_nil_right, List.cons_append, List.nil_append, List.append_nil, List.sum_cons, List.sum_nil,
      List.length_cons, List.length_nil, if_true, det, dot, cross_x, cross_y, cross_z, sub_x, sub_y, sub_z, add_x, add_y, add_z, smul_x, smul_y, smul_z, zero_x, zero_y, zero_z]
    push_cast
    ring
  obtain ⟨c, ec, hm⟩ := cell_geom hc hcl (fun f hf => by
    obtain ⟨l, hl, rfl⟩ := List.mem_map.1 hf
    fin_cases hl <;> simp) hun (by rw [hv]; exact div_ne_zero hd (by norm_num))
  rw [ec, hv]
  refine congrArg _ (Prod.ext ?_ rfl)
  dsimp only
  have hmom : momentOf (triangles (tetFaces P)) = smul (det (P 1 - P 0) (P 2 - P 0) (P 3 - P 0) / 6) (smul (1 / 4) (P 0 + P 1 + P 2 + P 3)) := by
    simp only [tetFaces, triangles, momentOf, edges, centre, List.map_cons, List.map_nil, List.flatMap_cons, List.flatMap_nil, List.getLast?_cons_cons, List.getLast?_singleton, List.zip_cons_cons, List.zip_nil_right, List.cons_append, List.nil_append, List.append_nil, List.sum_cons, List.sum_nil,
      List.length_cons, List.length_nil, if_true, det, dot, cross_x, cross_y, cross_z]
    ext <;> simp only [sub_x, sub_y, sub_z, add_x, add_y, add_z, smul_x, smul_y, smul_z, zero_x, zero_y, zero_z] <;> push_cast <;> ring
  rw [hv, hmom] at hm
  have inj : ∀ {k : Rat} {a b : V3}, k ≠ 0 → smul k a = smul k b → a = b := fun {k a b} hk h => by
    have hx := congrArg V3.x h
    have hy := congrArg V3.y h
    have hz := congrArg V3.z h
    exact V3.ext (mul_left_cancel₀ hk hx) (mul_left_cancel₀ hk hy) (mul_left_cancel₀ hk hz)
  exact inj (div_ne_zero hd (by norm_num)) hm

/-! ### A folded face -/

/-- An arrowhead between heights 0 and 1. -/
def arrow : Nat → V3
  | 0 => ⟨0, 0, 0⟩ | 1 => ⟨4, 3, 0⟩ | 2 => ⟨8, 0, 0⟩ | 3 => ⟨4, 15 / 2, 0⟩
  | 4 => ⟨0, 0, 1⟩ | 5 => ⟨4, 3, 1⟩ | 6 => ⟨8, 0, 1⟩ | _ => ⟨4, 15 / 2, 1⟩

/-- Its faces. -/
def arrowNodes : List (List Nat) := [[4, 5, 6, 7], [3, 2, 1, 0], [0, 1, 5, 4], [1, 2, 6, 5], [2, 3, 7, 6], [3, 0, 4, 7]]

def arrowFaces : List CellFace := arrowNodes.map (fun l => ⟨l.map arrow, vectorArea (l.map arrow), true⟩)

/-- The roots which are needed. -/
def arrowRoot (x : Rat) : Rat := if x = 1521 / 4 then 39 / 2 else if x = 9 / 4 then 3 / 2 else if x = 25 / 4 then 5 / 2 else if x = 289 / 16 then 17 / 4 else 0

/-- A plane face which is not convex, and cannot be seen from the mean of its corners: its area is 18 and the volume of the cell is 18, but they are given as 21 and 19. -/
theorem folded_face : Closed arrowFaces ∧ (∀ l ∈ arrowNodes, Plane (l.map arrow)) ∧ (∀ l ∈ arrowNodes, Roots arrowRoot (l.map arrow)) ∧
    vectorArea ([4, 5, 6, 7].map arrow) = ⟨0, 0, 18⟩ ∧ (faceGeom arrowRoot ([4, 5, 6, 7].map arrow)).map (fun g => (g.1, g.2.2)) = .ok (⟨0, 0, 18⟩, 21) ∧
    volumeOf (triangles arrowFaces) = 18 ∧ (arrowNodes.foldlM (fun s l => do
      let g ← faceGeom arrowRoot (l.map arrow)
      .ok (s ++ [g.2.1])) [] >>= fun cs => (cellGeom cs arrowFaces).map (·.2)) = .ok 19 := by
  refine ⟨?_, ?_, ?_, by decide +kernel, by decide +kernel, by decide +kernel, by decide +kernel⟩
  · have : arrowFaces = (arrowNodes.map (fun l => (l, vectorArea (l.map arrow), true))).map (fun f => ⟨f.1.map arrow, f.2.1, f.2.2⟩) := by
      rw [List.map_map]
      rfl
    rw [this]
    refine closed_of_nodes arrow _ ?_
    rw [List.flatMap_map]
    simp only [if_true]
    decide
  · intro l hl
    have lift : ∀ (o u v : V3) (l : List (V3)), (∀ p ∈ l, ∃ s t, p = o + smul s u + smul t v) → Plane l := fun o u v l h => ⟨o, u, v, h⟩
    fin_cases hl
    · exact lift ⟨0, 0, 1⟩ ⟨1, 0, 0⟩ ⟨0, 1, 0⟩ _ (by intro p hp; exact ⟨p.x, p.y, by fin_cases hp <;> decide +kernel⟩)
    · exact lift 0 ⟨1, 0, 0⟩ ⟨0, 1, 0⟩ _ (by intro p hp; exact ⟨p.x, p.y, by fin_cases hp <;> decide +kernel⟩)
    · exact lift 0 ⟨4, 3, 0⟩ ⟨0, 0, 1⟩ _ (by intro p hp; exact ⟨p.x / 4, p.z, by fin_cases hp <;> decide +kernel⟩)
    · exact lift ⟨8, 0, 0⟩ ⟨-4, 3, 0⟩ ⟨0, 0, 1⟩ _ (by intro p hp; exact ⟨(8 - p.x) / 4, p.z, by fin_cases hp <;> decide +kernel⟩)
    · exact lift ⟨8, 0, 0⟩ ⟨-4, 15 / 2, 0⟩ ⟨0, 0, 1⟩ _ (by intro p hp; exact ⟨(8 - p.x) / 4, p.z, by fin_cases hp <;> decide +kernel⟩)
    · exact lift 0 ⟨4, 15 / 2, 0⟩ ⟨0, 0, 1⟩ _ (by intro p hp; exact ⟨p.x / 4, p.z, by fin_cases hp <;> decide +kernel⟩)
  · intro l hl e he
    revert e
    fin_cases hl <;> decide +kernel

/-! ### Two dimensions -/

theorem readP_ok {a : List Rat} {k : Nat} (h : 2 * k + 1 < a.length) : readP a k = .ok (pt2 a k) := by
  unfold readP
  rw [Nat.mul_comm k, rd_of_getElem? (get_some (by omega)), bind_ok, rd_of_getElem? (get_some (by omega)), bind_ok]
  rfl

theorem writeP_ok {a : List Rat} {k : Nat} {v : Rat × Rat} (h : 2 * k + 1 < a.length) : ∃ b, writeP a k v = .ok b ∧ b.length = a.length ∧ pt2 b k = v ∧ ∀ j, j ≠ k → pt2 b j = pt2 a j := by
  unfold writeP
  rw [Nat.mul_comm k, wr_ok (by omega), bind_ok, wr_ok (by simp; omega)]
  refine ⟨_, rfl, by simp, ?_, fun j hj => ?_⟩
  · unfold pt2
    simp only [List.getD_eq_getElem?_getD, List.getElem?_set, List.length_set]
    refine Prod.ext ?_ ?_
    · simp [show 2 * k < a.length by omega]
    · simp [h]
  · unfold pt2
    simp only [List.getD_eq_getElem?_getD, List.getElem?_set, List.length_set]
    refine Prod.ext ?_ ?_
    · simp only; rw [if_neg (by omega), if_neg (by omega)]
    · simp only; rw [if_neg (by omega), if_neg (by omega)]

/-- Edges of two-dimensional grids: the normal is the edge turned by a right angle to the right, the centroid is the middle. -/
theorem edge_geometry {sqrt : Rat → Rat} {coords : List Rat} {n : Nat} {pos nodes : List Nat} {A B : Nat → Nat} (hrow : ∀ e, e < n → RowOf pos nodes e [A e, B e]) (hA : ∀ e, e < n → 2 * A e + 1 < coords.length) (hB : ∀ e, e < n → 2 * B e + 1 < coords.length) {r : FaceArrays}
    (h1 : r.normals.length = 2 * n) (h2 : r.centroids.length = 2 * n) (h3 : r.areas.length = n) : ∃ t, edgeGeometry sqrt coords n pos nodes r = .ok t ∧ t.normals.length = 2 * n ∧ t.centroids.length = 2 * n ∧ t.areas.length = n ∧ ∀ e, e < n →
      pt2 t.normals e = ((pt2 coords (B e)).2 - (pt2 coords (A e)).2, (pt2 coords (A e)).1 - (pt2 coords (B e)).1) ∧
      pt2 t.centroids e = (((pt2 coords (A e)).1 + (pt2 coords (B e)).1) / 2, ((pt2 coords (A e)).2 + (pt2 coords (B e)).2) / 2) ∧
      t.areas.getD e 0 = sqrt (((pt2 coords (B e)).1 - (pt2 coords (A e)).1) ^ 2 + ((pt2 coords (B e)).2 - (pt2 coords (A e)).2) ^ 2) := by
  unfold edgeGeometry
  obtain ⟨t, e, t1, t2, t3, t4⟩ := loop_inv (n := n) (f := fun e (r : FaceArrays) => do
    let p ← rd pos e
    let q ← rd pos (e + 1)
    check (decide ((q : Int) - p = 2))
    let ab ← edgeEnds coords pos nodes e
    let m ← writeP r.centroids e ((ab.1.1 + ab.2.1) * (1 / 2), (ab.1.2 + ab.2.2) * (1 / 2))
    let v := (ab.2.1 - ab.1.1, ab.2.2 - ab.1.2)
    let nrm ← writeP r.normals e (v.2, -v.1)
    let l ← wr r.areas e (sqrt (v.1 * v.1 + v.2 * v.2))
    .ok ⟨nrm, m, l⟩) (s := r) (P := fun m (t : FaceArrays) => t.normals.length = 2 * n ∧ t.centroids.length = 2 * n ∧ t.areas.length = n ∧ ∀ e, e < m →
      pt2 t.normals e = ((pt2 coords (B e)).2 - (pt2 coords (A e)).2, (pt2 coords (A e)).1 - (pt2 coords (B e)).1) ∧
      pt2 t.centroids e = (((pt2 coords (A e)).1 + (pt2 coords (B e)).1) / 2, ((pt2 coords (A e)).2 + (pt2 coords (B e)).2) / 2) ∧
      t.areas.getD e 0 = sqrt (((pt2 coords (B e)).1 - (pt2 coords (A e)).1) ^ 2 + ((pt2 coords (B e)).2 - (pt2 coords (A e)).2) ^ 2)) ⟨h1, h2, h3, by simp⟩ (by
      rintro f ⟨tn, tc, ta⟩ hf ⟨t1, t2, t3, t4⟩
      dsimp only at t1 t2 t3 t4
      obtain ⟨p, q, r1, r2, r3⟩ := hrow f hf
      have hl : p ≤ q ∧ q ≤ nodes.length ∧ nodes[p]? = some (A f) ∧ nodes[p + 1]? = some (B f) ∧ q = p + 2 := by
        unfold slice at r3
        split at r3
        · next h =>
          have e := Except.ok.inj r3
          have hlen := congrArg List.length e
          simp only [List.length_drop, List.length_take, List.length_cons, List.length_nil] at hlen
          have g0 := congrArg (·[0]?) e
          have g1 := congrArg (·[1]?) e
          simp only [List.getElem?_drop] at g0 g1
          rw [List.getElem?_take_of_lt (by omega)] at g0 g1
          exact ⟨h.1, h.2, g0, g1, by omega⟩
        · cases r3
      obtain ⟨_, _, k1, k2, rfl⟩ := hl
      have ee : edgeEnds coords pos nodes f = .ok (pt2 coords (A f), pt2 coords (B f)) := by
        unfold edgeEnds
        rw [rd_of_getElem? r1, bind_ok, rd_of_getElem? k1, bind_ok, rd_of_getElem? k2, bind_ok, readP_ok (hA f hf), bind_ok, readP_ok (hB f hf), bind_ok]
      rw [rd_of_getElem? r1, bind_ok, rd_of_getElem? r2, bind_ok, check_ok (by simp), bind_ok, ee, bind_ok]
      dsimp only
      obtain ⟨c', ec, c1, c2, c3⟩ := writeP_ok (a := tc) (k := f) (v := (((pt2 coords (A f)).1 + (pt2 coords (B f)).1) * (1 / 2), ((pt2 coords (A f)).2 + (pt2 coords (B f)).2) * (1 / 2))) (by omega)
      obtain ⟨n', en, n1, n2, n3⟩ := writeP_ok (a := tn) (k := f) (v := ((pt2 coords (B f)).2 - (pt2 coords (A f)).2, -((pt2 coords (B f)).1 - (pt2 coords (A f)).1))) (by omega)
      rw [ec, bind_ok, en, bind_ok, wr_ok (by omega), bind_ok]
      refine ⟨_, rfl, by dsimp only; omega, by dsimp only; omega, by simpa using t3, fun g hg => ?_⟩
      dsimp only
      rcases Nat.lt_succ_iff_lt_or_eq.1 hg with k | rfl
      · rw [n3 g (by omega), c3 g (by omega), show (ta.set f _).getD g 0 = ta.getD g 0 from by rw [List.getD_eq_getElem?_getD, List.getD_eq_getElem?_getD, List.getElem?_set, if_neg (by omega)]]
        exact t4 g k
      · rw [n2, c2, show ∀ v, (ta.set g v).getD g 0 = v from fun v => by rw [List.getD_eq_getElem?_getD, List.getElem?_set, if_pos rfl, if_pos (by omega)]; rfl]
        refine ⟨Prod.ext rfl (by dsimp only; ring), Prod.ext (by dsimp only; ring) (by dsimp only; ring), by rw [pow_two, pow_two]⟩)
  exact ⟨t, e, t1, t2, t3, t4⟩

/-- The normals of the edges around a cell add up to zero. -/
theorem edge_normals (l : List (Rat × Rat)) : ((edges l).map (fun e => e.2.2 - e.1.2)).sum = 0 ∧ ((edges l).map (fun e => e.1.1 - e.2.1)).sum = 0 := by
  have h1 := ((edges_ends l).map Prod.fst).sum_eq
  have h2 := ((edges_ends l).map Prod.snd).sum_eq
  simp only [List.map_map] at h1 h2
  refine ⟨?_, ?_⟩
  · have : (fun e : (Rat × Rat) × (Rat × Rat) => e.2.2 - e.1.2) = fun e => e.2.2 + -e.1.2 := by funext e; ring
    rw [this, sum_add_map, sum_neg_map]
    have h2' : ((edges l).map (fun e => e.1.2)).sum = ((edges l).map (fun e => e.2.2)).sum := h2
    rw [h2']
    ring
  · have : (fun e : (Rat × Rat) × (Rat × Rat) => e.1.1 - e.2.1) = fun e => e.1.1 + -e.2.1 := by funext e; ring
    rw [this, sum_add_map, sum_neg_map]
    have h1' : ((edges l).map (fun e => e.1.1)).sum = ((edges l).map (fun e => e.2.1)).sum := h1
    rw [h1']
    ring

/-- The mean of the corners of a polygon. -/
def centre2 (l : List (Rat × Rat)) : Rat × Rat := ((l.map Prod.fst).sum / l.length, (l.map Prod.snd).sum / l.length)

/-- Twice the signed area of the triangle of an edge and a point. -/
def turn (c : Rat × Rat) (e : (Rat × Rat) × (Rat × Rat)) : Rat := (e.1.1 - c.1) * (e.2.2 - c.2) - (e.1.2 - c.2) * (e.2.1 - c.1)

theorem edges_length {α : Type} (l : List α) : (edges l).length = l.length := by
  unfold edges
  cases e : l.getLast? with
  | none => rw [List.getLast?_eq_none_iff.1 e]; rfl
  | some p => simp

theorem edges_snd {α : Type} (l : List α) : (edges l).map Prod.snd = l := by
  unfold edges
  cases e : l.getLast? with
  | none => rw [List.getLast?_eq_none_iff.1 e]; rfl
  | some p => exact List.map_snd_zip (by simp)

theorem foldl_pair (l : List (Rat × Rat)) (s : Rat × Rat) : l.foldl (fun s p => (s.1 + p.1, s.2 + p.2)) s = (s.1 + (l.map Prod.fst).sum, s.2 + (l.map Prod.snd).sum) := by
  induction l generalizing s with
  | nil => simp
  | cons a l ih => rw [List.foldl_cons, ih]; simp [add_assoc]

theorem foldl_area (c : Rat × Rat) (l : List ((Rat × Rat) × (Rat × Rat))) (s : Rat) : l.foldl (fun a e => a + edgeArea c e) s = s + (l.map (edgeArea c)).sum := by
  induction l generalizing s with
  | nil => simp
  | cons a l ih => rw [List.foldl_cons, ih]; simp [add_assoc]

/-- A polygon which can be seen from the mean of its corners, whose edges may be given in either direction: its area is exact, and its centre is the mean of the corners. -/
theorem polygon_geom {l : List (Rat × Rat)} (hl : l ≠ []) {es : List ((Rat × Rat) × (Rat × Rat))} (he : List.Forall₂ (fun e e' => e' = e ∨ e' = e.swap) (edges l) es)
    (hs : (∀ e ∈ edges l, 0 ≤ turn (centre2 l) e) ∨ ∀ e ∈ edges l, turn (centre2 l) e ≤ 0) :
    polygon (es.map (fun e => ((e.1.1 + e.2.1) / 2, (e.1.2 + e.2.2) / 2))) es = .ok (centre2 l, |shoelace (edges l)| / 2) := by
  have sym : ∀ {β : Type} (f : (Rat × Rat) × (Rat × Rat) → β), (∀ e, f e.swap = f e) → es.map f = (edges l).map f := fun f hf => by
    generalize edges l = k at he
    induction he with
    | nil => rfl
    | cons h _ ih =>
      rw [List.map_cons, List.map_cons, ih]
      rcases h with h | h
      · rw [h]
      · rw [h, hf]
  have hlen : es.length = l.length := by rw [← he.length_eq, edges_length]
  have ends := edges_ends l
  have fst2 : ∀ g : Rat × Rat → Rat, ((edges l).map (fun e => g e.1)).sum = (l.map g).sum ∧ ((edges l).map (fun e => g e.2)).sum = (l.map g).sum := fun g => by
    have h1 := (ends.map g).sum_eq
    have h2 : (((edges l).map Prod.snd).map g).sum = (l.map g).sum := by rw [edges_snd]
    rw [h2] at h1
    rw [List.map_map] at h1 h2
    exact ⟨h1, h2⟩
  have half : ∀ g : Rat × Rat → Rat, ((edges l).map (fun e => (g e.1 + g e.2) / 2)).sum = (l.map g).sum := fun g => by
    have : (fun e : (Rat × Rat) × (Rat × Rat) => (g e.1 + g e.2) / 2) = fun e => 1 / 2 * (g e.1 + g e.2) := by funext e; ring
    rw [this, sum_mul_map, sum_add_map, (fst2 g).1, (fst2 g).2]
    ring
  have hm : meanP (es.map (fun e => ((e.1.1 + e.2.1) / 2, (e.1.2 + e.2.2) / 2))) = .ok (centre2 l) := by
    unfold meanP
    rw [if_neg (by rw [List.length_map, hlen]; simpa using hl), foldl_pair, List.map_map, List.map_map, List.length_map, hlen,
      sym (Prod.fst ∘ fun e : (Rat × Rat) × (Rat × Rat) => ((e.1.1 + e.2.1) / 2, (e.1.2 + e.2.2) / 2)) (fun e => by simp only [Function.comp, Prod.fst_swap, Prod.snd_swap]; ring),
      sym (Prod.snd ∘ fun e : (Rat × Rat) × (Rat × Rat) => ((e.1.1 + e.2.1) / 2, (e.1.2 + e.2.2) / 2)) (fun e => by simp only [Function.comp, Prod.fst_swap, Prod.snd_swap]; ring)]
    have a1 : ((edges l).map (Prod.fst ∘ fun e : (Rat × Rat) × (Rat × Rat) => ((e.1.1 + e.2.1) / 2, (e.1.2 + e.2.2) / 2))).sum = (l.map Prod.fst).sum := half Prod.fst
    have a2 : ((edges l).map (Prod.snd ∘ fun e : (Rat × Rat) × (Rat × Rat) => ((e.1.1 + e.2.1) / 2, (e.1.2 + e.2.2) / 2))).sum = (l.map Prod.snd).sum := half Prod.snd
    simp only [a1, a2, zero_add]
    rfl
  unfold polygon
  rw [hm, bind_ok, foldl_area, zero_add, sym (edgeArea (centre2 l)) (fun e => by
    unfold edgeArea
    rw [← abs_neg]
    congr 1
    simp only [Prod.fst_swap, Prod.snd_swap]
    ring)]
  have hturn : ((edges l).map (turn (centre2 l))).sum = shoelace (edges l) := by
    have : turn (centre2 l) = fun e => (e.1.1 * e.2.2 - e.1.2 * e.2.1) + ((centre2 l).2 * e.2.1 + -((centre2 l).2 * e.1.1) + (-((centre2 l).1 * e.2.2) + (centre2 l).1 * e.1.2)) := by
      funext e
      unfold turn
      ring
    rw [this, sum_add_map, sum_add_map, sum_add_map, sum_add_map, sum_neg_map, sum_neg_map, sum_mul_map, sum_mul_map, sum_mul_map, sum_mul_map, (fst2 Prod.fst).1, (fst2 Prod.fst).2, (fst2 Prod.snd).1, (fst2 Prod.snd).2, shoelace]
    ring
  have habs : ((edges l).map (edgeArea (centre2 l))).sum = |shoelace (edges l)| := by
    rcases hs with hs | hs
    · have : (edges l).map (edgeArea (centre2 l)) = (edges l).map (turn (centre2 l)) := List.map_congr_left fun e h => abs_of_nonneg (hs e h)
      rw [this, hturn, abs_of_nonneg]
      rw [← hturn]
      exact List.sum_nonneg fun x hx => by
        obtain ⟨e, h, rfl⟩ := List.mem_map.1 hx
        exact hs e h
    · have : (edges l).map (edgeArea (centre2 l)) = (edges l).map (fun e => -turn (centre2 l) e) := List.map_congr_left fun e h => abs_of_nonpos (hs e h)
      rw [this, sum_neg_map, hturn, abs_of_nonpos]
      have h2 : 0 ≤ ((edges l).map (fun e => -turn (centre2 l) e)).sum := List.sum_nonneg fun x hx => by
        obtain ⟨e, h, rfl⟩ := List.mem_map.1 hx
        have := hs e h
        linarith
      rw [sum_neg_map, hturn] at h2
      linarith
  rw [habs]
  congr 2
  ring

/-- The trapezoid with corners (0, 0), (2, 0), (1, 1) and (0, 1). -/
def trapezoid : List (Rat × Rat) := [(0, 0), (2, 0), (1, 1), (0, 1)]

/-- Its centre of gravity has abscissa 7/9, as the polygon consists of a square of area 1 and a triangle of area 1/2; but the centre which is given has abscissa 3/4. -/
theorem centre_not_centroid : polygon ((edges trapezoid).map (fun e => ((e.1.1 + e.2.1) / 2, (e.1.2 + e.2.2) / 2))) (edges trapezoid) = .ok ((3 / 4, 1 / 2), 3 / 2) ∧
    ((1 : Rat) * (1 / 2) + 1 / 2 * ((1 + 2 + 1) / 3)) / (3 / 2) = 7 / 9 := by
  refine ⟨by decide +kernel, by norm_num⟩

theorem edgeEnds_ok {coords : List Rat} {pos nodes : List Nat} {e a b : Nat} (hrow : RowOf pos nodes e [a, b]) (hA : 2 * a + 1 < coords.length) (hB : 2 * b + 1 < coords.length) : edgeEnds coords pos nodes e = .ok (pt2 coords a, pt2 coords b) := by
  obtain ⟨p, q, r1, r2, r3⟩ := hrow
  unfold slice at r3
  split at r3
  · next h =>
    have e := Except.ok.inj r3
    have hlen := congrArg List.length e
    simp only [List.length_drop, List.length_take, List.length_cons, List.length_nil] at hlen
    have g0 := congrArg (·[0]?) e
    have g1 := congrArg (·[1]?) e
    simp only [List.getElem?_drop] at g0 g1
    rw [List.getElem?_take_of_lt (by omega)] at g0 g1
    unfold edgeEnds
    rw [rd_of_getElem? r1, bind_ok, rd_of_getElem? (show nodes[p]? = some a from g0), bind_ok, rd_of_getElem? (show nodes[p + 1]? = some b from g1), bind_ok, readP_ok hA, bind_ok, readP_ok hB, bind_ok]
  · cases r3

/-- Cells of two-dimensional grids, whose edges are those of polygons. -/
theorem cell_geometry_2d {coords mids : List Rat} {n nc : Nat} {pos nodes facepos cellfaces : List Nat} {A B : Nat → Nat} (hrow : ∀ e, e < n → RowOf pos nodes e [A e, B e]) (hA : ∀ e, e < n → 2 * A e + 1 < coords.length) (hB : ∀ e, e < n → 2 * B e + 1 < coords.length)
    (hml : mids.length = 2 * n) (hm : ∀ e, e < n → pt2 mids e = (((pt2 coords (A e)).1 + (pt2 coords (B e)).1) / 2, ((pt2 coords (A e)).2 + (pt2 coords (B e)).2) / 2))
    {es : Nat → List Nat} (hcell : ∀ c, c < nc → RowOf facepos cellfaces c (es c)) (hes : ∀ c, c < nc → ∀ e ∈ es c, e < n) {V : Nat → List (Rat × Rat)} (hV : ∀ c, c < nc → V c ≠ [])
    (hpoly : ∀ c, c < nc → List.Forall₂ (fun e e' => e' = e ∨ e' = e.swap) (edges (V c)) ((es c).map (fun e => (pt2 coords (A e), pt2 coords (B e)))))
    (hs : ∀ c, c < nc → (∀ e ∈ edges (V c), 0 ≤ turn (centre2 (V c)) e) ∨ ∀ e ∈ edges (V c), turn (centre2 (V c)) e ≤ 0) {cc cv : List Rat} (h4 : cc.length = 2 * nc) (h5 : cv.length = nc) :
    ∃ t v, cellGeometry2 coords pos nodes mids nc facepos cellfaces (cc, cv) = .ok (t, v) ∧ t.length = 2 * nc ∧ v.length = nc ∧ ∀ c, c < nc → pt2 t c = centre2 (V c) ∧ v.getD c 0 = |shoelace (edges (V c))| / 2 := by
  unfold cellGeometry2
  obtain ⟨⟨t, v⟩, e, t1, v1, h⟩ := loop_inv (n := nc) (f := fun c (r : List Rat × List Rat) => do
    let l ← entries facepos cellfaces c
    let ms ← l.foldlM (fun s e => do
      let m ← readP mids e
      .ok (s ++ [m])) []
    let es ← l.foldlM (fun s e => do
      let ab ← edgeEnds coords pos nodes e
      .ok (s ++ [ab])) []
    let g ← polygon ms es
    let cc ← writeP r.1 c g.1
    let cv ← wr r.2 c g.2
    .ok (cc, cv)) (s := (cc, cv)) (P := fun m (r : List Rat × List Rat) => r.1.length = 2 * nc ∧ r.2.length = nc ∧ ∀ c, c < m → pt2 r.1 c = centre2 (V c) ∧ r.2.getD c 0 = |shoelace (edges (V c))| / 2) ⟨h4, h5, by simp⟩ (by
      rintro c ⟨t, v⟩ hc ⟨t1, v1, h⟩
      dsimp only at t1 v1 h
      have g := polygon_geom (hV c hc) (hpoly c hc) (hs c hc)
      rw [List.map_map] at g
      obtain ⟨n', en, n1, n2, n3⟩ := writeP_ok (a := t) (k := c) (v := centre2 (V c)) (by omega)
      rw [entries_ok (hcell c hc), bind_ok, collect (g := fun e => (((pt2 coords (A e)).1 + (pt2 coords (B e)).1) / 2, ((pt2 coords (A e)).2 + (pt2 coords (B e)).2) / 2)) (fun e he => by
        have := hes c hc e he
        rw [readP_ok (by omega), hm e this]), bind_ok, collect (g := fun e => (pt2 coords (A e), pt2 coords (B e))) (fun e he => edgeEnds_ok (hrow e (hes c hc e he)) (hA e (hes c hc e he)) (hB e (hes c hc e he))), bind_ok]
      rw [show polygon ((es c).map (fun e => (((pt2 coords (A e)).1 + (pt2 coords (B e)).1) / 2, ((pt2 coords (A e)).2 + (pt2 coords (B e)).2) / 2))) ((es c).map (fun e => (pt2 coords (A e), pt2 coords (B e)))) = _ from g, bind_ok]
      dsimp only
      rw [en, bind_ok, wr_ok (by omega), bind_ok]
      refine ⟨_, rfl, by dsimp only; omega, by simpa using v1, fun d hd => ?_⟩
      dsimp only
      rcases Nat.lt_succ_iff_lt_or_eq.1 hd with k | rfl
      · rw [n3 d (by omega), show (v.set c _).getD d 0 = v.getD d 0 from by rw [List.getD_eq_getElem?_getD, List.getD_eq_getElem?_getD, List.getElem?_set, if_neg (by omega)]]
        exact h d k
      · rw [n2, show ∀ x, (v.set d x).getD d 0 = x from fun x => by rw [List.getD_eq_getElem?_getD, List.getElem?_set, if_pos rfl, if_pos (by omega)]; rfl]
        exact ⟨rfl, rfl⟩)
  exact ⟨t, v, e, t1, v1, h⟩

/-! ### The hypotheses can be met -/

/-- A grid of one tetrahedron. -/
def tetCoords : List Rat := [0, 0, 0, 1, 0, 0, 0, 1, 0, 0, 0, 2]

example : (faceGeometry (fun x => x) tetCoords 4 [0, 3, 6, 9, 12] [0, 2, 1, 0, 1, 3, 1, 2, 3, 0, 3, 2] ⟨List.replicate 12 0, List.replicate 12 0, List.replicate 4 0⟩).map (·.normals) = .ok [0, 0, -1 / 2, 0, -1, 0, 1, 1, 1 / 2, -1, 0, 0] := by decide +kernel

example : cellGeometry tetCoords [0, 3, 6, 9, 12] [0, 2, 1, 0, 1, 3, 1, 2, 3, 0, 3, 2] [0, -1, 0, -1, 0, -1, 0, -1] [0, 0, -1 / 2, 0, -1, 0, 1, 1, 1 / 2, -1, 0, 0] (List.replicate 12 0) 1 [0, 4] [0, 1, 2, 3] ([0, 0, 0], [0]) = .ok ([1 / 4, 1 / 4, 1 / 2], [1 / 3]) := by decide +kernel

example : Closed (tetFaces (pt tetCoords)) ∧ volumeOf (triangles (tetFaces (pt tetCoords))) = 1 / 3 := by
  refine ⟨?_, by decide +kernel⟩
  unfold Closed
  decide +kernel

example : (∀ e ∈ edges trapezoid, 0 ≤ turn (centre2 trapezoid) e) ∧ shoelace (edges trapezoid) = 3 := by decide +kernel

end Opm.Geometry
