import Verif.Props.VelocityInterpolation
import Verif.Props.CfsTpfa
import Mathlib.Tactic.IntervalCases
/-!
# Example: a square with a triangle at its right side
-/

namespace Opm.Wachspress
open Opm

/-- Nodes (0,0), (1,0), (1,1), (0,1), (2,0); the right side of the square, between nodes 1 and 2, is the left side of the triangle 1, 4, 2. -/
def exGrid : Grid where
  dim := 2
  nc := 2
  faceCells := [0, -1, 0, 1, 0, -1, -1, 0, 1, -1, 1, -1]
  facepos := [0, 4, 7]
  cellfaces := [3, 1, 0, 2, 5, 1, 4]
  nodepos := [0, 2, 4, 6, 8, 10, 12]
  facenodes := [0, 1, 1, 2, 2, 3, 3, 0, 1, 4, 4, 2]
  normals := [0, -1, 1, 0, 0, 1, 1, 0, 0, -1, 1, 1]
  centroids := [1 / 2, 0, 1, 1 / 2, 1 / 2, 1, 0, 1 / 2, 3 / 2, 0, 3 / 2, 1 / 2]
  cellCentroids := [1 / 2, 1 / 2, 4 / 3, 1 / 3]
  volumes := [1, 1 / 2]

def exMesh : Mesh where
  faces c := if c = 0 then [3, 1, 0, 2] else [5, 1, 4]
  nodes f := [[0, 1], [1, 2], [2, 3], [3, 0], [1, 4], [4, 2]].getD f []

theorem exGrid_ok : GridOk exGrid exMesh where
  dim := Or.inl rfl
  cell c hc := by
    change c < 2 at hc
    interval_cases c
    · exact ⟨0, 4, rfl, rfl, rfl⟩
    · exact ⟨4, 7, rfl, rfl, rfl⟩
  face c f hc hf := by
    have : f < 6 := by
      change c < 2 at hc
      interval_cases c <;> simp [exMesh] at hf <;> omega
    exact ⟨2 * f, 2 * f + 2, by interval_cases f <;> rfl, by interval_cases f <;> rfl, by interval_cases f <;> rfl⟩
  once c hc := by
    change c < 2 at hc
    interval_cases c <;> decide
  onceN c f hc hf := by
    have : f < 6 := by
      change c < 2 at hc
      interval_cases c <;> simp [exMesh] at hf <;> omega
    interval_cases f <;> decide
  side c f hc hf := by
    change c < 2 at hc
    interval_cases c <;> simp [exMesh] at hf <;> rcases hf with rfl | hf <;> try rcases hf with rfl | hf
    all_goals first | decide | (rcases hf with rfl | rfl <;> decide) | (subst hf; decide)
  normals c f hc hf := by
    have : f < 6 := by
      change c < 2 at hc
      interval_cases c <;> simp [exMesh] at hf <;> omega
    change 2 * f + 2 ≤ 12
    omega
  centroids c f hc hf := by
    have : f < 6 := by
      change c < 2 at hc
      interval_cases c <;> simp [exMesh] at hf <;> omega
    change 2 * f + 2 ≤ 12
    omega

theorem exVertex {c v : Nat} (hc : c < 2) (h : exMesh.Vertex c v) : (c = 0 ∧ v < 4) ∨ (c = 1 ∧ (v = 1 ∨ v = 4 ∨ v = 2)) := by
  obtain ⟨f, hf, hv⟩ := h
  interval_cases c
  · simp [exMesh] at hf
    rcases hf with rfl | rfl | rfl | rfl <;> simp [exMesh] at hv <;> omega
  · simp [exMesh] at hf
    rcases hf with rfl | rfl | rfl <;> simp [exMesh] at hv <;> omega

theorem exSimple : Simple exGrid exMesh := by
  intro c v hc hv
  rcases exVertex hc hv with ⟨rfl, h⟩ | ⟨rfl, rfl | rfl | rfl⟩
  · interval_cases v <;> rfl
  all_goals rfl

theorem exIndependent : Independent exGrid exMesh := by
  intro c v hc hv u hu d hd
  change d < 2 at hd
  have t : ∀ f, through exGrid f u = nrm exGrid f 0 * u 0 + nrm exGrid f 1 * u 1 := by
    intro f
    unfold through
    change ∑ d ∈ Finset.range 2, _ = _
    rw [Finset.sum_range_succ, Finset.sum_range_one]
  have key : u 0 = 0 ∧ u 1 = 0 := by
    rcases exVertex hc hv with ⟨rfl, h⟩ | ⟨rfl, rfl | rfl | rfl⟩
    · interval_cases v
      · have h0 := hu 3 (by decide)
        have h1 := hu 0 (by decide)
        rw [t] at h0 h1
        norm_num [nrm, exGrid] at h0 h1
        exact ⟨h0, h1⟩
      · have h0 := hu 1 (by decide)
        have h1 := hu 0 (by decide)
        rw [t] at h0 h1
        norm_num [nrm, exGrid] at h0 h1
        exact ⟨h0, h1⟩
      · have h0 := hu 1 (by decide)
        have h1 := hu 2 (by decide)
        rw [t] at h0 h1
        norm_num [nrm, exGrid] at h0 h1
        exact ⟨h0, h1⟩
      · have h0 := hu 3 (by decide)
        have h1 := hu 2 (by decide)
        rw [t] at h0 h1
        norm_num [nrm, exGrid] at h0 h1
        exact ⟨h0, h1⟩
    · have h0 := hu 1 (by decide)
      have h1 := hu 4 (by decide)
      rw [t] at h0 h1
      norm_num [nrm, exGrid] at h0 h1
      exact ⟨h0, h1⟩
    · have h0 := hu 5 (by decide)
      have h1 := hu 4 (by decide)
      rw [t] at h0 h1
      norm_num [nrm, exGrid] at h0 h1
      exact ⟨by linarith, h1⟩
    · have h0 := hu 1 (by decide)
      have h1 := hu 5 (by decide)
      rw [t] at h0 h1
      norm_num [nrm, exGrid] at h0 h1
      exact ⟨h0, by linarith⟩
  rcases (by omega : d = 0 ∨ d = 1) with rfl | rfl
  · exact key.1
  · exact key.2

theorem exDist {c f : Nat} {x : Nat → Rat} : dist exGrid c f x =
    (if exGrid.faceCells.getD (2 * f) (-1) = (c : Int) then 1 else -1) * (nrm exGrid f 0 * (exGrid.centroids.getD (2 * f) 0 - x 0) + nrm exGrid f 1 * (exGrid.centroids.getD (2 * f + 1) 0 - x 1)) := by
  unfold dist through
  change _ * ∑ d ∈ Finset.range 2, _ = _
  rw [Finset.sum_range_succ, Finset.sum_range_one]
  rfl

/-- The point (3/4, 1/4) is inside the square. -/
theorem exInside : Within exGrid exMesh 0 (fun d => ([3 / 4, 1 / 4] : List Rat).getD d 0) := by
  refine ⟨fun f hf => ?_, 0, ⟨0, by decide, by decide⟩, fun f hf => ?_⟩
  all_goals
    simp [exMesh] at hf
    rw [exDist]
    rcases hf with rfl | rfl | rfl | rfl <;> norm_num [nrm, exGrid]

/-- The point (1, 1/4) is on the side between the cells. -/
theorem exFace (c : Nat) (hc : c < 2) : Within exGrid exMesh c (fun d => ([1, 1 / 4] : List Rat).getD d 0) := by
  interval_cases c
  · refine ⟨fun f hf => ?_, 1, ⟨0, by decide, by decide⟩, fun f hf => ?_⟩
    all_goals
      simp [exMesh] at hf
      rw [exDist]
      rcases hf with rfl | rfl | rfl | rfl <;> norm_num [nrm, exGrid, exMesh]
  · refine ⟨fun f hf => ?_, 1, ⟨4, by decide, by decide⟩, fun f hf => ?_⟩
    all_goals
      simp [exMesh] at hf
      rw [exDist]
      rcases hf with rfl | rfl | rfl <;> norm_num [nrm, exGrid, exMesh]

/-- The tables of the example. -/
example : (match construct exGrid with
    | .ok S => decide (S.corners.map (·.map (·.vertex)) = [[0, 1, 2, 3], [1, 2, 4]] ∧ S.corners.map (·.map (·.id)) = [[0, 1, 2, 3], [4, 5, 6]] ∧
        S.adj = [3, 0, 1, 0, 1, 2, 3, 2, 1, 4, 5, 1, 5, 4] ∧ S.nonadj = [[1, 2], [2, 3], [0, 3], [0, 1], [5], [4], [1]])
    | .error _ => false) = true := by decide +kernel

example : ∃ S, construct exGrid = .ok S := (construct_iff exGrid_ok).2 exSimple

/-- A grid for which no object can be made: three edges of a cell meet in a node. -/
example : construct { exGrid with nc := 1, facepos := [0, 5], cellfaces := [3, 1, 0, 2, 4] } = .error .thrown := by decide +kernel

/-- The coordinates of (3/4, 1/4) are those of bilinear interpolation. -/
example : (match construct exGrid with
    | .ok S => decide (cartToBary exGrid S 0 [3 / 4, 1 / 4] [7, 7, 7, 7] = .ok [3 / 16, 9 / 16, 3 / 16, 1 / 16])
    | .error _ => false) = true := by decide +kernel

/-- The hypotheses of the theorem about coordinates are met. -/
example : ∃ S row, construct exGrid = .ok S ∧ S.corners[0]? = some row ∧ ∃ b, cartToBary exGrid S 0 [3 / 4, 1 / 4] (List.replicate row.length 0) = .ok b ∧
    Bary exGrid exMesh 0 (fun d => ([3 / 4, 1 / 4] : List Rat).getD d 0) (fun i => (row.map (·.vertex)).getD i 0) row.length (fun i => b.getD i 0) := by
  obtain ⟨S, e⟩ := (construct_iff exGrid_ok).2 exSimple
  have hS := construct_made exGrid_ok e
  obtain ⟨row, hr, -⟩ := numCorners_eq hS (c := 0) (by decide)
  obtain ⟨b, eb, -, -, hb⟩ := cartToBary_bary exGrid_ok exSimple exIndependent hS (by decide) hr (x := [3 / 4, 1 / 4]) (xb := List.replicate row.length 0) (by decide) (by simp) exInside
  exact ⟨S, row, e, hr, b, eb, hb⟩

/-- The hypotheses of the theorem about vertices are met by node 1 in the square. -/
example : ∃ S row b, construct exGrid = .ok S ∧ S.corners[0]? = some row ∧ cartToBary exGrid S 0 [1, 0] (List.replicate row.length 0) = .ok b ∧
    ∀ (i : Nat) (k : Corner), row[i]? = some k → b.getD i 0 = if k.vertex = 1 then 1 else 0 := by
  obtain ⟨S, e⟩ := (construct_iff exGrid_ok).2 exSimple
  have hS := construct_made exGrid_ok e
  obtain ⟨row, hr, -⟩ := numCorners_eq hS (c := 0) (by decide)
  obtain ⟨b, eb, hb⟩ := cartToBary_vertex exGrid_ok exSimple exIndependent hS (by decide) hr (x := [1, 0]) (xb := List.replicate row.length 0) (by decide) (by simp) (v := 1) ⟨0, by decide, by decide⟩
    (by
      intro f hf
      simp [exMesh] at hf
      rw [exDist]
      rcases hf with rfl | rfl | rfl | rfl <;> norm_num [nrm, exGrid, exMesh])
    (by
      intro w hw hall
      have h0 := hall 0 (by decide) (by decide)
      have h1 := hall 1 (by decide) (by decide)
      simp [exMesh] at h0 h1
      omega)
  exact ⟨S, row, b, e, hr, eb, hb⟩

/-- Fluxes that are not those of a constant velocity; the same normal velocity is found from both sides at (1, 1/4). -/
example : ∃ lu S cv w0 w1 b0 b1, CfsTpfa.LapackOk lu ∧ construct exGrid = .ok S ∧ setupFluxes lu exGrid S [1, 2, 3, 4, 5, 6] [9] = .ok cv ∧
    interpolate exGrid S cv [] 0 [1, 1 / 4] [0, 0] = .ok (w0, b0) ∧ interpolate exGrid S cv b0 1 [1, 1 / 4] [0, 0] = .ok (w1, b1) ∧
    through exGrid 1 (fun d => w0.getD d 0) = 2 ∧ through exGrid 1 (fun d => w1.getD d 0) = 2 := by
  obtain ⟨lu, hlu⟩ := CfsTpfa.exists_lapack
  obtain ⟨S, cv, e1, e2, h⟩ := ecvi_velocity exGrid_ok exSimple exIndependent hlu (flux := [1, 2, 3, 4, 5, 6]) (cv := [9]) (by
    intro c f hc hf
    change c < 2 at hc
    change f < 6
    interval_cases c <;> simp [exMesh] at hf <;> omega)
  have z : ∀ c, c < 2 → dist exGrid c 1 (fun d => ([1, 1 / 4] : List Rat).getD d 0) = 0 := by
    intro c hc
    rw [exDist]
    interval_cases c <;> norm_num [nrm, exGrid]
  obtain ⟨w0, b0, a1, -, -, a2, -⟩ := h 0 [1, 1 / 4] [0, 0] [] (by decide) (by decide) (by decide) (exFace 0 (by decide))
  obtain ⟨w1, b1, c1, -, -, c2, -⟩ := h 1 [1, 1 / 4] [0, 0] b0 (by decide) (by decide) (by decide) (exFace 1 (by decide))
  exact ⟨lu, S, cv, w0, w1, b0, b1, hlu, e1, e2, a1, c1, a2 1 (by decide) (z 0 (by decide)), c2 1 (by decide) (z 1 (by decide))⟩

/-- The velocity (2, 3) is found in the triangle. -/
example : Gauss exGrid exMesh 1 ∧ interpolateConstant exGrid [-3, 2, 3, 2, -3, 5] 1 [7, 7, 7] = .ok [2, 3, 7] := by
  refine ⟨?_, by decide +kernel⟩
  intro d j hd hj
  change d < 2 at hd
  change j < 2 at hj
  interval_cases d <;> interval_cases j <;> norm_num [exMesh, exGrid, nrm]

end Opm.Wachspress
