import Verif.Props.FlowBcManager
import Verif.Props.CartGrid
import Mathlib.Tactic.IntervalCases
/-!
# Conditions on the sides of Cartesian grids
-/

namespace Opm.FlowBcManager
open Opm Cart

/-- The manager's view of a Cartesian grid, which has no `global_cell`. -/
def ofCart (G : Cart.Grid) : SideGrid := ⟨G.ndims, [G.cartdims.1, G.cartdims.2.1, G.cartdims.2.2], G.nc, none, G.cellFacepos, G.cellFaces, some G.cellFacetag, G.faceCells, G.faceAreas⟩

/-- The face is one of the given side of the box: Xmin, Xmax, Ymin, Ymax, Zmin, Zmax. -/
def OnSide (nx ny nz f : Nat) : Nat → Prop
  | 0 => ∃ j k, j < ny ∧ k < nz ∧ f = xface3 nx ny 0 j k
  | 1 => ∃ j k, j < ny ∧ k < nz ∧ f = xface3 nx ny nx j k
  | 2 => ∃ i k, i < nx ∧ k < nz ∧ f = yface3 nx ny nz i 0 k
  | 3 => ∃ i k, i < nx ∧ k < nz ∧ f = yface3 nx ny nz i ny k
  | 4 => ∃ i j, i < nx ∧ j < ny ∧ f = zface3 nx ny nz i j 0
  | 5 => ∃ i j, i < nx ∧ j < ny ∧ f = zface3 nx ny nz i j nz
  | _ => False

/-- The faces of the cell at a position. -/
def six (nx ny nz i j k : Nat) : List Nat := [xface3 nx ny i j k, xface3 nx ny (i + 1) j k, yface3 nx ny nz i j k, yface3 nx ny nz i (j + 1) k, zface3 nx ny nz i j k, zface3 nx ny nz i j (k + 1)]

theorem cell_pos {nx ny nz c : Nat} (h : c < nx * ny * nz) : c % nx < nx ∧ c / nx % ny < ny ∧ c / nx / ny < nz ∧ c = cell3 nx ny (c % nx) (c / nx % ny) (c / nx / ny) := by
  obtain ⟨i, j, k, hi, hj, hk, rfl⟩ := idx3_surj h
  have e1 : (i + nx * (j + ny * k)) % nx = i := by rw [Nat.add_mul_mod_self_left, Nat.mod_eq_of_lt hi]
  have e2 : (i + nx * (j + ny * k)) / nx = j + ny * k := by rw [Nat.add_mul_div_left _ _ (by omega), Nat.div_eq_of_lt hi, Nat.zero_add]
  rw [e1, e2, Nat.add_mul_mod_self_left, Nat.mod_eq_of_lt hj, Nat.add_mul_div_left _ _ (by omega), Nat.div_eq_of_lt hj, Nat.zero_add]
  exact ⟨hi, hj, hk, rfl⟩

theorem pos_cell {nx ny i j k : Nat} (hi : i < nx) (hj : j < ny) : cell3 nx ny i j k % nx = i ∧ cell3 nx ny i j k / nx % ny = j ∧ cell3 nx ny i j k / nx / ny = k := by
  unfold cell3
  have e2 : (i + nx * (j + ny * k)) / nx = j + ny * k := by rw [Nat.add_mul_div_left _ _ (by omega), Nat.div_eq_of_lt hi, Nat.zero_add]
  rw [e2, Nat.add_mul_mod_self_left, Nat.mod_eq_of_lt hi, Nat.add_mul_mod_self_left, Nat.mod_eq_of_lt hj, Nat.add_mul_div_left _ _ (by omega), Nat.div_eq_of_lt hj, Nat.zero_add]
  exact ⟨rfl, rfl, rfl⟩

def pos3 (nx ny c : Nat) : List Nat := [c % nx, c / nx % ny, c / nx / ny]
def faces3 (nx ny nz c : Nat) : List Nat := six nx ny nz (c % nx) (c / nx % ny) (c / nx / ny)

theorem sides_lt {G : Cart.Grid} {f : Nat} {a b : Int} (h : G.topo.Sides f a b) : 2 * f + 1 < G.faceCells.length := (List.getElem?_eq_some_iff.1 h.2).1

theorem sides_outer {G : Cart.Grid} {f : Nat} {a b : Int} (h : G.topo.Sides f a b) (hab : a = -1 ∨ b = -1) : (ofCart G).outer f = true := by
  unfold SideGrid.outer
  have h1 : G.faceCells[2 * f]? = some a := h.1
  have h2 : G.faceCells[2 * f + 1]? = some b := h.2
  simp only [ofCart, List.getD_eq_getElem?_getD, h1, h2, Option.getD_some]
  simpa using hab

theorem fits3 {nx ny nz : Nat} {G : Cart.Grid} (h : IsCart3d nx ny nz G) : (ofCart G).Fits G.cellFacetag (pos3 nx ny) (faces3 nx ny nz) (fun _ => [0, 1, 2, 3, 4, 5]) where
  nd := by simp [ofCart, h.ndims]
  tags := rfl
  dims := rfl
  posLen c hc := by simp [ofCart, h.ndims, pos3]
  posLt c hc d x n := by
    have hc' : c < nx * ny * nz := by simpa [ofCart, h.nc] using hc
    obtain ⟨h1, h2, h3, _⟩ := cell_pos hc'
    simp only [ofCart, h.dims, pos3]
    match d with
    | 0 => rintro ⟨⟩ ⟨⟩; exact h1
    | 1 => rintro ⟨⟩ ⟨⟩; exact h2
    | 2 => rintro ⟨⟩ ⟨⟩; exact h3
    | d + 3 => intro e; simp at e
  index c hc := by
    have hc' : c < nx * ny * nz := by simpa [ofCart, h.nc] using hc
    obtain ⟨h1, h2, h3, h4⟩ := cell_pos hc'
    simp only [SideGrid.global, ofCart, h.dims, h.ndims]
    congr 1
  faces c hc := by
    have hc' : c < nx * ny * nz := by simpa [ofCart, h.nc] using hc
    obtain ⟨h1, h2, h3, h4⟩ := cell_pos hc'
    obtain ⟨r1, r2, r3, _⟩ := h.cell _ _ _ h1 h2 h3
    rw [← h4] at r1 r2 r3
    exact ⟨_, _, r1, r2, r3⟩
  facetags c hc := by
    have hc' : c < nx * ny * nz := by simpa [ofCart, h.nc] using hc
    obtain ⟨h1, h2, h3, h4⟩ := cell_pos hc'
    obtain ⟨r1, r2, _, r3⟩ := h.cell _ _ _ h1 h2 h3
    rw [← h4] at r1 r2 r3
    exact ⟨_, _, r1, r2, r3⟩
  inside c hc f hf := by
    have hc' : c < nx * ny * nz := by simpa [ofCart, h.nc] using hc
    obtain ⟨h1, h2, h3, _⟩ := cell_pos hc'
    simp only [faces3, six, List.mem_cons, List.not_mem_nil, or_false] at hf
    show 2 * f + 1 < G.faceCells.length
    rcases hf with rfl | rfl | rfl | rfl | rfl | rfl
    · exact sides_lt (h.xface _ _ _ (by omega) h2 h3).2.2.2
    · exact sides_lt (h.xface _ _ _ (by omega) h2 h3).2.2.2
    · exact sides_lt (h.yface _ _ _ h1 (by omega) h3).2.2.2
    · exact sides_lt (h.yface _ _ _ h1 (by omega) h3).2.2.2
    · exact sides_lt (h.zface _ _ _ h1 h2 (by omega)).2.2.2
    · exact sides_lt (h.zface _ _ _ h1 h2 (by omega)).2.2.2

theorem tagged_six {nx ny nz side : Nat} (hs : side < 6) (c : Nat) : tagged (faces3 nx ny nz) (fun _ => [0, 1, 2, 3, 4, 5]) side c = [(faces3 nx ny nz c).getD side 0] := by
  unfold tagged faces3 six
  interval_cases side <;> rfl

/-- A cell on the side has a face on the side. -/
theorem six_on_side {nx ny nz side i j k : Nat} (h1 : 0 < nx) (h2 : 0 < ny) (h3 : 0 < nz) (hs : side < 6) (hi : i < nx) (hj : j < ny) (hk : k < nz) (he : [i, j, k][side / 2]? = some (extreme side ([nx, ny, nz].getD (side / 2) 0))) :
    OnSide nx ny nz ((six nx ny nz i j k).getD side 0) side := by
  unfold six
  interval_cases side
  · obtain rfl : i = 0 := by simpa [extreme] using he
    exact ⟨j, k, hj, hk, rfl⟩
  · have : i = nx - 1 := by simpa [extreme] using he
    obtain rfl : nx = i + 1 := by omega
    exact ⟨j, k, hj, hk, rfl⟩
  · obtain rfl : j = 0 := by simpa [extreme] using he
    exact ⟨i, k, hi, hk, rfl⟩
  · have : j = ny - 1 := by simpa [extreme] using he
    obtain rfl : ny = j + 1 := by omega
    exact ⟨i, k, hi, hk, rfl⟩
  · obtain rfl : k = 0 := by simpa [extreme] using he
    exact ⟨i, j, hi, hj, rfl⟩
  · have : k = nz - 1 := by simpa [extreme] using he
    obtain rfl : nz = k + 1 := by omega
    exact ⟨i, j, hi, hj, rfl⟩

/-- A face on the side is that of a cell on the side. -/
theorem on_side_six {nx ny nz side f : Nat} (h1 : 0 < nx) (h2 : 0 < ny) (h3 : 0 < nz) (hs : side < 6) (h : OnSide nx ny nz f side) :
    ∃ i j k, i < nx ∧ j < ny ∧ k < nz ∧ [i, j, k][side / 2]? = some (extreme side ([nx, ny, nz].getD (side / 2) 0)) ∧ (six nx ny nz i j k).getD side 0 = f := by
  interval_cases side
  · obtain ⟨j, k, hj, hk, rfl⟩ := h
    exact ⟨0, j, k, h1, hj, hk, rfl, rfl⟩
  · obtain ⟨j, k, hj, hk, rfl⟩ := h
    refine ⟨nx - 1, j, k, by omega, hj, hk, rfl, ?_⟩
    show xface3 nx ny (nx - 1 + 1) j k = _
    rw [Nat.sub_add_cancel h1]
  · obtain ⟨j, k, hj, hk, rfl⟩ := h
    exact ⟨j, 0, k, hj, h2, hk, rfl, rfl⟩
  · obtain ⟨i, k, hi, hk, rfl⟩ := h
    refine ⟨i, ny - 1, k, hi, by omega, hk, rfl, ?_⟩
    show yface3 nx ny nz i (ny - 1 + 1) k = _
    rw [Nat.sub_add_cancel h2]
  · obtain ⟨i, j, hi, hj, rfl⟩ := h
    exact ⟨i, j, 0, hi, hj, h3, rfl, rfl⟩
  · obtain ⟨i, j, hi, hj, rfl⟩ := h
    refine ⟨i, j, nz - 1, hi, hj, by omega, rfl, ?_⟩
    show zface3 nx ny nz i j (nz - 1 + 1) = _
    rw [Nat.sub_add_cancel h3]

theorem six_inj {nx ny nz side i j k i' j' k' : Nat} (hs : side < 6) (hi : i < nx) (hj : j < ny) (hi' : i' < nx) (hj' : j' < ny) (h : (six nx ny nz i j k).getD side 0 = (six nx ny nz i' j' k').getD side 0) : i = i' ∧ j = j' ∧ k = k' := by
  unfold six at h
  interval_cases side
  · exact xface3_inj (by omega) hj (by omega) hj' h
  · have := xface3_inj (by omega) hj (by omega) hj' h
    omega
  · exact yface3_inj hi (by omega) hi' (by omega) h
  · have := yface3_inj hi (by omega) hi' (by omega) h
    omega
  · exact zface3_inj hi hj hi' hj' h
  · have := zface3_inj hi hj hi' hj' h
    omega

theorem on_side_outer {nx ny nz side f : Nat} {G : Cart.Grid} (h : IsCart3d nx ny nz G) (hs : side < 6) (hf : OnSide nx ny nz f side) : (ofCart G).outer f = true := by
  interval_cases side
  · obtain ⟨j, k, hj, hk, rfl⟩ := hf
    exact sides_outer (h.xface _ _ _ (by omega) hj hk).2.2.2 (.inl rfl)
  · obtain ⟨j, k, hj, hk, rfl⟩ := hf
    exact sides_outer (h.xface _ _ _ (by omega) hj hk).2.2.2 (.inr (by simp [after]))
  · obtain ⟨j, k, hj, hk, rfl⟩ := hf
    exact sides_outer (h.yface _ _ _ hj (by omega) hk).2.2.2 (.inl rfl)
  · obtain ⟨j, k, hj, hk, rfl⟩ := hf
    exact sides_outer (h.yface _ _ _ hj (by omega) hk).2.2.2 (.inr (by simp [after]))
  · obtain ⟨j, k, hj, hk, rfl⟩ := hf
    exact sides_outer (h.zface _ _ _ hj hk (by omega)).2.2.2 (.inl rfl)
  · obtain ⟨j, k, hj, hk, rfl⟩ := hf
    exact sides_outer (h.zface _ _ _ hj hk (by omega)).2.2.2 (.inr (by simp [after]))

/-- In a Cartesian grid exactly the faces of the side of the box are found, each once. -/
theorem cart_side_faces {nx ny nz side : Nat} {G : Cart.Grid} (h : IsCart3d nx ny nz G) (h1 : 0 < nx) (h2 : 0 < ny) (h3 : 0 < nz) (hs : side < 6) :
    ∃ l, findSideFaces (ofCart G) side = .ok l ∧ l.Nodup ∧ l ≠ [] ∧ ∀ f, f ∈ l ↔ OnSide nx ny nz f side := by
  have hfits := fits3 h
  rw [find_side_faces hfits (by simp only [ofCart, h.ndims]; omega)]
  have hform : (ofCart G).sideFaces (pos3 nx ny) (faces3 nx ny nz) (fun _ => [0, 1, 2, 3, 4, 5]) side =
      ((List.range (nx * ny * nz)).filter (fun c => (pos3 nx ny c)[side / 2]? = some (extreme side ([nx, ny, nz].getD (side / 2) 0)))).map (fun c => (faces3 nx ny nz c).getD side 0) := by
    unfold SideGrid.sideFaces
    rw [show tagged (faces3 nx ny nz) (fun _ => [0, 1, 2, 3, 4, 5]) side = fun c => [(faces3 nx ny nz c).getD side 0] from funext (tagged_six hs)]
    rw [← List.map_eq_flatMap]
    simp only [ofCart, h.nc, h.dims]
  have hmem : ∀ f, f ∈ (ofCart G).sideFaces (pos3 nx ny) (faces3 nx ny nz) (fun _ => [0, 1, 2, 3, 4, 5]) side ↔ OnSide nx ny nz f side := by
    intro f
    rw [hform, List.mem_map]
    constructor
    · rintro ⟨c, hc, rfl⟩
      rw [List.mem_filter, List.mem_range] at hc
      obtain ⟨p1, p2, p3, _⟩ := cell_pos hc.1
      exact six_on_side h1 h2 h3 hs p1 p2 p3 (by simpa [pos3] using hc.2)
    · intro hf
      obtain ⟨i, j, k, hi, hj, hk, he, rfl⟩ := on_side_six h1 h2 h3 hs hf
      obtain ⟨e1, e2, e3⟩ := pos_cell (k := k) hi hj
      refine ⟨cell3 nx ny i j k, ?_, ?_⟩
      · rw [List.mem_filter, List.mem_range]
        exact ⟨idx3_lt hi hj hk, by unfold pos3; rw [e1, e2, e3]; simpa using he⟩
      · unfold faces3
        rw [e1, e2, e3]
  refine ⟨_, if_pos ?_, ?_, ?_, hmem⟩
  · rw [List.all_eq_true]
    exact fun f hf => on_side_outer h hs ((hmem f).1 hf)
  · rw [hform]
    refine List.Nodup.map_on ?_ (List.Nodup.filter _ List.nodup_range)
    intro c hc c' hc' e
    rw [List.mem_filter, List.mem_range] at hc hc'
    obtain ⟨p1, p2, p3, p4⟩ := cell_pos hc.1
    obtain ⟨q1, q2, q3, q4⟩ := cell_pos hc'.1
    obtain ⟨r1, r2, r3⟩ := six_inj hs p1 p2 q1 q2 e
    rw [p4, q4, r1, r2, r3]
  · intro hn
    have : ∃ f, OnSide nx ny nz f side := by
      interval_cases side
      · exact ⟨_, 0, 0, h2, h3, rfl⟩
      · exact ⟨_, 0, 0, h2, h3, rfl⟩
      · exact ⟨_, 0, 0, h1, h3, rfl⟩
      · exact ⟨_, 0, 0, h1, h3, rfl⟩
      · exact ⟨_, 0, 0, h1, h2, rfl⟩
      · exact ⟨_, 0, 0, h1, h2, rfl⟩
    obtain ⟨f, hf⟩ := this
    have := (hmem f).2 hf
    rw [hn] at this
    cases this

/-! ### Inactive cells -/

/-- Two of the three cells of a row, the first being inactive. -/
def gap : SideGrid := ⟨1, [3, 1, 1], 2, some [1, 2], [0, 2, 4], [0, 1, 1, 2], some [0, 1, 0, 1], [-1, 0, 0, 1, 1, -1], [1, 1, 1]⟩

/-- Cells at the boundary of the grid behind inactive cells do not belong to the side, although their faces are at the boundary: no flux is prescribed, and prescribing a pressure is undefined. -/
theorem behind_inactive_cells (J : FlowBc.Junk) (b : FlowBc.Bcs) (v : Rat) : findSideFaces gap 0 = .ok [] ∧ findSideFaces gap 1 = .ok [2] ∧ gap.outer 0 = true ∧
    fluxSide J gap 0 v b = .ok b ∧ pressureSide J gap 0 v b = .error .ub := by
  have h : findSideFaces gap 0 = .ok [] := by decide +kernel
  refine ⟨h, by decide +kernel, by decide +kernel, ?_, pressure_side_without_cells h v b⟩
  unfold fluxSide
  rw [h, bind_ok]
  rfl

/-! ### The hypotheses can be met -/

example : gap.Fits [0, 1, 0, 1] (fun c => [c + 1]) (fun c => [c, c + 1]) (fun _ => [0, 1]) where
  nd := by decide
  tags := rfl
  dims := rfl
  posLen _ _ := rfl
  posLt c hc d x n := by
    have : c = 0 ∨ c = 1 := by have : c < 2 := hc; omega
    rcases d with _ | d
    · rintro ⟨⟩ ⟨⟩; omega
    · intro e; simp at e
  index c hc := by
    have : c = 0 ∨ c = 1 := by have : c < 2 := hc; omega
    rcases this with rfl | rfl <;> rfl
  faces c hc := by
    have : c = 0 ∨ c = 1 := by have : c < 2 := hc; omega
    rcases this with rfl | rfl
    · exact ⟨0, 2, rfl, rfl, rfl⟩
    · exact ⟨2, 4, rfl, rfl, rfl⟩
  facetags c hc := by
    have : c = 0 ∨ c = 1 := by have : c < 2 := hc; omega
    rcases this with rfl | rfl
    · exact ⟨0, 2, rfl, rfl, rfl⟩
    · exact ⟨2, 4, rfl, rfl, rfl⟩
  inside c hc f hf := by
    have : c < 2 := hc
    show 2 * f + 1 < 6
    simp only [List.mem_cons, List.not_mem_nil, or_false] at hf
    rcases hf with rfl | rfl <;> omega

example : (createCart3d ⟨fun _ => 0, fun _ => 0, fun _ => 0⟩ 2 2 1).bind (fun G => findSideFaces (ofCart G) 1) = .ok [2, 5] := by decide +kernel

example : (manage ⟨fun _ => 0, fun _ => .noflow, fun _ => 0, fun _ => 0⟩ [.append .pressure 0 7, .clear, .fluxSide gap 1 5, .append .pressure 0 3]).bind (fun b => FlowBc.get b 0) = .ok ⟨.fluxTotvol, 5, [2]⟩ := by decide +kernel

end Opm.FlowBcManager
