import Verif.Proofs.WachspressLinear
import Verif.Props.WachspressExample
/-!
# Barycentric coordinates reproduce the point
-/

namespace Opm.Wachspress
open Opm

variable {g : Grid} {m : Mesh}

theorem sum_getD {α : Type} (d0 : α) (F : α → Rat) (l : List α) : ∑ i ∈ Finset.range l.length, F (l.getD i d0) = (l.map F).sum := by
  induction l with
  | nil => simp
  | cons a l ih =>
    rw [List.length_cons, Finset.sum_range_succ', List.map_cons, List.sum_cons, ← ih, add_comm]
    rfl

/-- In a cell that is a convex polygon or polyhedron, the vertices, weighted with the coordinates of a point, have this point as their mean: interpolation with the coordinates is exact for linear functions.
This is so for every point, inside or not, for which there are coordinates at all. -/
theorem cartToBary_linear (h : GridOk g m) (hs : Simple g m) (hi : Independent g m) {S : Static} (hS : Made g m S) {c : Nat} (hc : c < g.nc) {row : List Corner} (hr : S.corners[c]? = some row)
    {X : Nat → Nat → Rat} (hX : Convex g m c X) {x xb b : List Rat} (hxl : g.dim ≤ x.length) (hb : row.length ≤ xb.length) (hne : row ≠ []) (e : cartToBary g S c x xb = .ok b) {d : Nat} (hd : d < g.dim) :
    ∑ i ∈ Finset.range row.length, b.getD i 0 * X ((row.map (·.vertex)).getD i 0) d = x.getD d 0 := by
  have ht : total g m c (fun d => x.getD d 0) row ≠ 0 := by
    intro h0
    rw [(cartToBary_eq h hS hc hr hxl hb).2 h0 hne] at e
    cases e
  obtain ⟨b', e', -, hb', -⟩ := (cartToBary_eq h hS hc hr hxl hb).1 ht
  rw [e] at e'
  obtain rfl := Except.ok.inj e'
  have hnd : (row.map (·.vertex)).Nodup := (hS.increasing c row hr).imp (fun h => by omega)
  have hz := weighted_zero h hs hi hc hX (fun d => x.getD d 0) (V := (row.map (·.vertex)).toFinset) (fun v => by rw [List.mem_toFinset]; exact hS.vertex c row hr v) hd
  rw [List.sum_toFinset _ hnd, List.map_map] at hz
  have e1 : (row.map ((fun v => vol g (m.at c v) * Pd g m c (fun d => x.getD d 0) (A m c v) * (X v d - x.getD d 0)) ∘ (·.vertex))).sum =
      ∑ i ∈ Finset.range row.length, W g m c (fun d => x.getD d 0) (row.getD i ⟨0, 0, 0⟩) * (X (row.getD i ⟨0, 0, 0⟩).vertex d - x.getD d 0) := by
    rw [← sum_getD ⟨0, 0, 0⟩]
    refine Finset.sum_congr rfl (fun i hi' => ?_)
    have hk := (getD_mem (Finset.mem_range.1 hi')).2
    simp only [Function.comp]
    unfold W
    rw [prod_off h hc, hS.volume c row _ hr hk, vol_span _ h.dim]
  rw [e1] at hz
  have e2 : ∀ i ∈ Finset.range row.length, b.getD i 0 * X ((row.map (·.vertex)).getD i 0) d =
      (W g m c (fun d => x.getD d 0) (row.getD i ⟨0, 0, 0⟩) * (X (row.getD i ⟨0, 0, 0⟩).vertex d - x.getD d 0)) / total g m c (fun d => x.getD d 0) row +
        W g m c (fun d => x.getD d 0) (row.getD i ⟨0, 0, 0⟩) / total g m c (fun d => x.getD d 0) row * x.getD d 0 := by
    intro i hi'
    have hg := (getD_mem (Finset.mem_range.1 hi')).1
    rw [hb' i (Finset.mem_range.1 hi'), show (row.map (·.vertex)).getD i 0 = (row.getD i ⟨0, 0, 0⟩).vertex by
      rw [List.getD_eq_getElem?_getD, List.getElem?_map, hg]; rfl]
    ring
  rw [Finset.sum_congr rfl e2, Finset.sum_add_distrib, ← Finset.sum_div, hz, zero_div, zero_add, ← Finset.sum_mul, ← Finset.sum_div]
  change total g m c (fun d => x.getD d 0) row / _ * _ = _
  rw [div_self ht, one_mul]

/-! ### The square is convex -/

/-- Positions of the nodes of the example. -/
def exPos (v d : Nat) : Rat := ([0, 0, 1, 0, 1, 1, 0, 1, 2, 0] : List Rat).getD (2 * v + d) 0

theorem exConvex : Convex exGrid exMesh 0 exPos where
  on f v hf hv hvf := by
    simp [exMesh] at hf
    rw [exDist]
    rcases hf with rfl | rfl | rfl | rfl <;> simp [exMesh] at hvf <;> rcases hvf with rfl | rfl <;> norm_num [nrm, exGrid, exPos]
  inside f v hf hv hvf := by
    have h4 : v < 4 := by rcases exVertex (by decide) hv with h | h <;> omega
    simp [exMesh] at hf
    rw [exDist]
    interval_cases v <;> rcases hf with rfl | rfl | rfl | rfl <;> simp [exMesh] at hvf <;> norm_num [nrm, exGrid, exPos]
  distinct v w hv hw he := by
    have h4 : v < 4 := by rcases exVertex (by decide) hv with h | h <;> omega
    have h5 : w < 4 := by rcases exVertex (by decide) hw with h | h <;> omega
    have h0 := he 0 (by decide)
    have h1 := he 1 (by decide)
    interval_cases v <;> interval_cases w <;> first | rfl | (exfalso; revert h0; norm_num [exPos]; done) | (exfalso; revert h1; norm_num [exPos]; done)
  ends L hn hl hf hv := by
    have hl : L.length = 1 := by change L.length + 1 = 2 at hl; omega
    obtain ⟨p, rfl⟩ := List.length_eq_one_iff.1 hl
    have hp := hf p (by simp)
    simp [exMesh] at hp
    rcases hp with rfl | rfl | rfl | rfl
    · exact ⟨3, 0, by decide, fun v => by simp [exMesh]⟩
    · exact ⟨1, 2, by decide, fun v => by simp [exMesh]⟩
    · exact ⟨0, 1, by decide, fun v => by simp [exMesh]⟩
    · exact ⟨2, 3, by decide, fun v => by simp [exMesh]⟩

/-- The hypotheses are met by the point (3/4, 1/4) in the square. -/
example : ∃ S row b, construct exGrid = .ok S ∧ S.corners[0]? = some row ∧ cartToBary exGrid S 0 [3 / 4, 1 / 4] (List.replicate row.length 0) = .ok b ∧
    ∑ i ∈ Finset.range row.length, b.getD i 0 * exPos ((row.map (·.vertex)).getD i 0) 0 = 3 / 4 := by
  obtain ⟨S, e⟩ := (construct_iff exGrid_ok).2 exSimple
  have hS := construct_made exGrid_ok e
  obtain ⟨row, hr, -, -, hv⟩ := numCorners_eq hS (c := 0) (by decide)
  have hne : row ≠ [] := by
    rintro rfl
    exact absurd ((hv 0).2 ⟨0, by decide, by decide⟩) (by simp)
  obtain ⟨b, eb, -, -, hb⟩ := cartToBary_bary exGrid_ok exSimple exIndependent hS (by decide) hr (x := [3 / 4, 1 / 4]) (xb := List.replicate row.length 0) (by decide) (by simp) exInside
  exact ⟨S, row, b, e, hr, eb, cartToBary_linear exGrid_ok exSimple exIndependent hS (by decide) hr exConvex (by decide) (by simp) hne eb (d := 0) (by decide)⟩

/-! ### A tetrahedron -/

def tetGrid : Grid where
  dim := 3
  nc := 1
  faceCells := [0, -1, 0, -1, -1, 0, 0, -1]
  facepos := [0, 4]
  cellfaces := [2, 0, 3, 1]
  nodepos := [0, 3, 6, 9, 12]
  facenodes := [1, 2, 3, 0, 2, 3, 0, 1, 3, 0, 1, 2]
  normals := [1 / 2, 1 / 2, 1 / 2, -1 / 2, 0, 0, 0, 1 / 2, 0, 0, 0, -1 / 2]
  centroids := [1 / 3, 1 / 3, 1 / 3, 0, 1 / 3, 1 / 3, 1 / 3, 0, 1 / 3, 1 / 3, 1 / 3, 0]
  cellCentroids := [1 / 4, 1 / 4, 1 / 4]
  volumes := [1 / 6]

def tetMesh : Mesh where
  faces _ := [2, 0, 3, 1]
  nodes f := [[1, 2, 3], [0, 2, 3], [0, 1, 3], [0, 1, 2]].getD f []

theorem tet_lt {c f : Nat} (hf : f ∈ tetMesh.faces c) : f < 4 := by simp [tetMesh] at hf; omega

theorem tetGrid_ok : GridOk tetGrid tetMesh where
  dim := Or.inr rfl
  cell c hc := by
    change c < 1 at hc
    interval_cases c
    exact ⟨0, 4, rfl, rfl, rfl⟩
  face c f hc hf := by
    have := tet_lt hf
    exact ⟨3 * f, 3 * f + 3, by interval_cases f <;> rfl, by interval_cases f <;> rfl, by interval_cases f <;> rfl⟩
  once c hc := by simp [tetMesh]
  onceN c f hc hf := by
    have := tet_lt hf
    interval_cases f <;> decide
  side c f hc hf := by
    change c < 1 at hc
    have := tet_lt hf
    interval_cases c
    interval_cases f <;> decide
  normals c f hc hf := by
    have := tet_lt hf
    change 3 * f + 3 ≤ 12
    omega
  centroids c f hc hf := by
    have := tet_lt hf
    change 3 * f + 3 ≤ 12
    omega

theorem tet_vertex {c v : Nat} (h : tetMesh.Vertex c v) : v < 4 := by
  obtain ⟨f, hf, hv⟩ := h
  have := tet_lt hf
  interval_cases f <;> simp [tetMesh] at hv <;> omega

theorem tetSimple : Simple tetGrid tetMesh := by
  intro c v hc hv
  have := tet_vertex hv
  interval_cases v <;> rfl

theorem tetIndependent : Independent tetGrid tetMesh := by
  intro c v hc hv u hu d hd
  change d < 3 at hd
  have hv := tet_vertex hv
  have t : ∀ f, through tetGrid f u = nrm tetGrid f 0 * u 0 + nrm tetGrid f 1 * u 1 + nrm tetGrid f 2 * u 2 := by
    intro f
    unfold through
    change ∑ d ∈ Finset.range 3, _ = _
    rw [Finset.sum_range_succ, Finset.sum_range_succ, Finset.sum_range_one]
  have key : u 0 = 0 ∧ u 1 = 0 ∧ u 2 = 0 := by
    interval_cases v
    · have h0 := hu 1 (by simp [Mesh.at, tetMesh])
      have h1 := hu 2 (by simp [Mesh.at, tetMesh])
      have h2 := hu 3 (by simp [Mesh.at, tetMesh])
      rw [t] at h0 h1 h2
      norm_num [nrm, tetGrid] at h0 h1 h2
      exact ⟨by linarith, by linarith, by linarith⟩
    · have h0 := hu 0 (by simp [Mesh.at, tetMesh])
      have h1 := hu 2 (by simp [Mesh.at, tetMesh])
      have h2 := hu 3 (by simp [Mesh.at, tetMesh])
      rw [t] at h0 h1 h2
      norm_num [nrm, tetGrid] at h0 h1 h2
      exact ⟨by linarith, by linarith, by linarith⟩
    · have h0 := hu 0 (by simp [Mesh.at, tetMesh])
      have h1 := hu 1 (by simp [Mesh.at, tetMesh])
      have h2 := hu 3 (by simp [Mesh.at, tetMesh])
      rw [t] at h0 h1 h2
      norm_num [nrm, tetGrid] at h0 h1 h2
      exact ⟨by linarith, by linarith, by linarith⟩
    · have h0 := hu 0 (by simp [Mesh.at, tetMesh])
      have h1 := hu 1 (by simp [Mesh.at, tetMesh])
      have h2 := hu 2 (by simp [Mesh.at, tetMesh])
      rw [t] at h0 h1 h2
      norm_num [nrm, tetGrid] at h0 h1 h2
      exact ⟨by linarith, by linarith, by linarith⟩
  rcases (by omega : d = 0 ∨ d = 1 ∨ d = 2) with rfl | rfl | rfl
  · exact key.1
  · exact key.2.1
  · exact key.2.2

theorem tetDist {c f : Nat} {x : Nat → Rat} : dist tetGrid c f x = (if tetGrid.faceCells.getD (2 * f) (-1) = (c : Int) then 1 else -1) *
    (nrm tetGrid f 0 * (tetGrid.centroids.getD (3 * f) 0 - x 0) + nrm tetGrid f 1 * (tetGrid.centroids.getD (3 * f + 1) 0 - x 1) + nrm tetGrid f 2 * (tetGrid.centroids.getD (3 * f + 2) 0 - x 2)) := by
  unfold dist through
  change _ * ∑ d ∈ Finset.range 3, _ = _
  rw [Finset.sum_range_succ, Finset.sum_range_succ, Finset.sum_range_one]
  rfl

def tetPos (v d : Nat) : Rat := if v = d + 1 then 1 else 0

theorem tetConvex : Convex tetGrid tetMesh 0 tetPos where
  on f v hf hv hvf := by
    have h4 := tet_vertex hv
    have := tet_lt hf
    rw [tetDist]
    interval_cases f <;> interval_cases v <;> simp [tetMesh] at hvf <;> norm_num [nrm, tetGrid, tetPos]
  inside f v hf hv hvf := by
    have h4 := tet_vertex hv
    have := tet_lt hf
    rw [tetDist]
    interval_cases f <;> interval_cases v <;> simp [tetMesh] at hvf <;> norm_num [nrm, tetGrid, tetPos]
  distinct v w hv hw he := by
    have h4 := tet_vertex hv
    have h5 := tet_vertex hw
    have h0 := he 0 (by decide)
    have h1 := he 1 (by decide)
    have h2 := he 2 (by decide)
    interval_cases v <;> interval_cases w <;> first | rfl | (exfalso; revert h0; norm_num [tetPos]; done) | (exfalso; revert h1; norm_num [tetPos]; done) | (exfalso; revert h2; norm_num [tetPos]; done)
  ends L hn hl hf hv := by
    have hl : L.length = 2 := by change L.length + 1 = 3 at hl; omega
    obtain ⟨p, q, rfl⟩ := List.length_eq_two.1 hl
    have hp := tet_lt (hf p (by simp))
    have hq := tet_lt (hf q (by simp))
    have hpq : p ≠ q := by simpa using hn
    have key : ∃ a b, a ≠ b ∧ a < 4 ∧ b < 4 ∧ ∀ v, v < 4 → ((∀ f ∈ [p, q], v ∈ tetMesh.nodes f) ↔ v = a ∨ v = b) := by
      clear hf hv hn hl
      interval_cases p <;> interval_cases q <;> first | exact absurd rfl hpq | skip
      · exact ⟨2, 3, by decide, by decide, by decide, by decide⟩
      · exact ⟨1, 3, by decide, by decide, by decide, by decide⟩
      · exact ⟨1, 2, by decide, by decide, by decide, by decide⟩
      · exact ⟨2, 3, by decide, by decide, by decide, by decide⟩
      · exact ⟨0, 3, by decide, by decide, by decide, by decide⟩
      · exact ⟨0, 2, by decide, by decide, by decide, by decide⟩
      · exact ⟨1, 3, by decide, by decide, by decide, by decide⟩
      · exact ⟨0, 3, by decide, by decide, by decide, by decide⟩
      · exact ⟨0, 1, by decide, by decide, by decide, by decide⟩
      · exact ⟨1, 2, by decide, by decide, by decide, by decide⟩
      · exact ⟨0, 2, by decide, by decide, by decide, by decide⟩
      · exact ⟨0, 1, by decide, by decide, by decide, by decide⟩
    obtain ⟨a, b, hab, ha, hb, hk⟩ := key
    refine ⟨a, b, hab, fun v => ?_⟩
    by_cases h4 : v < 4
    · exact hk v h4
    · constructor
      · intro hall
        exact absurd (tet_vertex (c := 0) ⟨p, hf p (by simp), hall p (by simp)⟩) h4
      · intro h; omega

/-- The hypotheses can be met in three dimensions; the coordinates of a point in this tetrahedron are found. -/
example : GridOk tetGrid tetMesh ∧ Simple tetGrid tetMesh ∧ Independent tetGrid tetMesh ∧ Convex tetGrid tetMesh 0 tetPos ∧
    (match construct tetGrid with
      | .ok S => decide (cartToBary tetGrid S 0 [1 / 2, 1 / 3, 1 / 12] [0, 0, 0, 0] = .ok [1 / 12, 1 / 2, 1 / 3, 1 / 12])
      | .error _ => false) = true :=
  ⟨tetGrid_ok, tetSimple, tetIndependent, tetConvex, by decide +kernel⟩

end Opm.Wachspress
