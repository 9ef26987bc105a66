import Verif.Proofs.CartGridSpec
/-!
# Property theorems for Cartesian grids (C28, C29)
-/

namespace Opm.Cart

/-! ### C28: topology, C29: geometry -/

/-- **C28, C29.**  For positive dimensions and coordinate arrays of the right length, `create_grid_tensor3d` returns a grid whose topology
is the one of a box of cells, valid as a mesh, whose geometry is the one of the boxes between the grid lines, and whose cell volumes
add up to the volume of the bounding box. -/
theorem tensor3d_grid (junk : Junk) (nx ny nz : Nat) (x y z : List Rat) (X Y Z : Nat → Rat) (h1 : 0 < nx) (h2 : 0 < ny) (h3 : 0 < nz)
    (hx : Holds x nx X) (hy : Holds y ny Y) (hz : Holds z nz Z) :
    ∃ G, createTensor3d junk nx ny nz x y z = .ok G ∧ IsCart3d nx ny nz G ∧ G.topo.Valid ∧ IsBoxes3d nx ny nz X Y Z G ∧
      G.cellVolumes.sum = (X nx - X 0) * (Y ny - Y 0) * (Z nz - Z 0) := by
  unfold createTensor3d
  rw [topology3d h1 h2 h3, bind_ok, geometry3d (nf := (nx + 1) * ny * nz + nx * (ny + 1) * nz + nx * ny * (nz + 1)) hx hy hz rfl rfl
    (by simp [allocateCartGrid3d, allocateCartGrid, allocateGrid]) (by simp [allocateCartGrid3d, allocateCartGrid, allocateGrid])
    (by simp [allocateCartGrid3d, allocateCartGrid, allocateGrid]) (by simp [allocateCartGrid3d, allocateCartGrid, allocateGrid])
    (by simp [allocateCartGrid3d, allocateCartGrid, allocateGrid]) (by simp [allocateCartGrid3d, allocateCartGrid, allocateGrid])]
  exact ⟨_, rfl, isCart3d rfl rfl rfl rfl rfl rfl rfl rfl rfl rfl rfl, valid3d rfl rfl rfl rfl rfl, isBoxes3d rfl rfl rfl rfl rfl rfl,
    volumes3d nx ny nz X Y Z⟩

/-- **C28, C29.**  The same in two dimensions. -/
theorem tensor2d_grid (junk : Junk) (nx ny : Nat) (x y : List Rat) (X Y : Nat → Rat) (h1 : 0 < nx) (h2 : 0 < ny) (hx : Holds x nx X) (hy : Holds y ny Y) :
    ∃ G, createTensor2d junk nx ny x y = .ok G ∧ IsCart2d nx ny G ∧ G.topo.Valid ∧ IsBoxes2d nx ny X Y G ∧
      G.cellVolumes.sum = (X nx - X 0) * (Y ny - Y 0) := by
  unfold createTensor2d
  rw [topology2d h1 h2, bind_ok, geometry2d (nf := (nx + 1) * ny + nx * (ny + 1)) hx hy rfl rfl
    (by simp [allocateCartGrid2d, allocateCartGrid, allocateGrid]) (by simp [allocateCartGrid2d, allocateCartGrid, allocateGrid])
    (by simp [allocateCartGrid2d, allocateCartGrid, allocateGrid]) (by simp [allocateCartGrid2d, allocateCartGrid, allocateGrid])
    (by simp [allocateCartGrid2d, allocateCartGrid, allocateGrid]) (by simp [allocateCartGrid2d, allocateCartGrid, allocateGrid])]
  exact ⟨_, rfl, isCart2d rfl rfl rfl rfl rfl rfl rfl rfl rfl rfl rfl, valid2d rfl rfl rfl rfl rfl, isBoxes2d rfl rfl rfl rfl rfl rfl,
    volumes2d nx ny X Y⟩

theorem equidistant_holds (n : Nat) (d : Rat) : Holds (equidistant n d) n (fun i => (i : Rat) * d) := by
  intro i hi
  unfold equidistant
  rw [List.getElem?_map, List.getElem?_range (by omega)]
  rfl

/-- **C29.**  With constant spacings all cells have the volume `dx dy dz`, and the total is `nx dx · ny dy · nz dz`. -/
theorem hexa3d_grid (junk : Junk) (nx ny nz : Nat) (dx dy dz : Rat) (h1 : 0 < nx) (h2 : 0 < ny) (h3 : 0 < nz) :
    ∃ G, createHexa3d junk nx ny nz dx dy dz = .ok G ∧ IsCart3d nx ny nz G ∧ G.topo.Valid ∧
      IsBoxes3d nx ny nz (fun i => (i : Rat) * dx) (fun i => (i : Rat) * dy) (fun i => (i : Rat) * dz) G ∧
      (∀ v ∈ G.cellVolumes, v = dx * dy * dz) ∧ G.cellVolumes.sum = (nx * dx) * (ny * dy) * (nz * dz) := by
  obtain ⟨G, e, hc, hv, hb, hs⟩ := tensor3d_grid junk nx ny nz _ _ _ _ _ _ h1 h2 h3 (equidistant_holds nx dx) (equidistant_holds ny dy) (equidistant_holds nz dz)
  refine ⟨G, e, hc, hv, hb, ?_, ?_⟩
  · intro v hv
    obtain ⟨n, hn⟩ := List.mem_iff_getElem?.1 hv
    have hlt := (List.getElem?_eq_some_iff.1 hn).1
    rw [hb.volumes] at hlt
    obtain ⟨i, j, k, hi, hj, hk, rfl⟩ := idx3_surj hlt
    have := (hb.cell i j k hi hj hk).2
    unfold cell3 at this
    rw [hn] at this
    cases this
    unfold len
    push_cast
    ring
  · rw [hs]
    push_cast
    ring

/-- **C29.**  The same in two dimensions. -/
theorem cart2d_grid (junk : Junk) (nx ny : Nat) (dx dy : Rat) (h1 : 0 < nx) (h2 : 0 < ny) :
    ∃ G, createCart2d junk nx ny dx dy = .ok G ∧ IsCart2d nx ny G ∧ G.topo.Valid ∧
      IsBoxes2d nx ny (fun i => (i : Rat) * dx) (fun i => (i : Rat) * dy) G ∧
      (∀ v ∈ G.cellVolumes, v = dx * dy) ∧ G.cellVolumes.sum = (nx * dx) * (ny * dy) := by
  obtain ⟨G, e, hc, hv, hb, hs⟩ := tensor2d_grid junk nx ny _ _ _ _ h1 h2 (equidistant_holds nx dx) (equidistant_holds ny dy)
  refine ⟨G, e, hc, hv, hb, ?_, ?_⟩
  · intro v hv
    obtain ⟨n, hn⟩ := List.mem_iff_getElem?.1 hv
    have hlt := (List.getElem?_eq_some_iff.1 hn).1
    rw [hb.volumes] at hlt
    obtain ⟨i, j, hi, hj, rfl⟩ := idx2_surj hlt
    have := (hb.cell i j hi hj).2
    unfold cell2 at this
    rw [hn] at this
    cases this
    unfold len
    push_cast
    ring
  · rw [hs]
    push_cast
    ring

/-- **C28.**  `create_grid_cart3d` has unit cells. -/
theorem cart3d_grid (junk : Junk) (nx ny nz : Nat) (h1 : 0 < nx) (h2 : 0 < ny) (h3 : 0 < nz) :
    ∃ G, createCart3d junk nx ny nz = .ok G ∧ IsCart3d nx ny nz G ∧ G.topo.Valid ∧ (∀ v ∈ G.cellVolumes, v = 1) := by
  obtain ⟨G, e, hc, hv, _, hu, _⟩ := hexa3d_grid junk nx ny nz 1 1 1 h1 h2 h3
  exact ⟨G, e, hc, hv, fun v h => by rw [hu v h]; norm_num⟩

/-! ### C28: the numbering is a bijection -/

/-- **C28.**  The cell numbers are `0, …, nc - 1`, each used for exactly one cell. -/
theorem cell_numbering (nx ny nz : Nat) :
    (∀ i j k, i < nx → j < ny → k < nz → cell3 nx ny i j k < nx * ny * nz) ∧
    (∀ c, c < nx * ny * nz → ∃ i j k, i < nx ∧ j < ny ∧ k < nz ∧ c = cell3 nx ny i j k) ∧
    (∀ i j k i' j' k', i < nx → j < ny → i' < nx → j' < ny → cell3 nx ny i j k = cell3 nx ny i' j' k' → i = i' ∧ j = j' ∧ k = k') :=
  ⟨fun _ _ _ hi hj hk => idx3_lt hi hj hk, fun _ h => idx3_surj h, fun _ _ _ _ _ _ hi hj hi' hj' h => cell3_inj hi hj hi' hj' h⟩

/-- **C28.**  The node numbers likewise. -/
theorem node_numbering (nx ny nz : Nat) :
    (∀ i j k, i ≤ nx → j ≤ ny → k ≤ nz → node3 nx ny i j k < (nx + 1) * (ny + 1) * (nz + 1)) ∧
    (∀ c, c < (nx + 1) * (ny + 1) * (nz + 1) → ∃ i j k, i ≤ nx ∧ j ≤ ny ∧ k ≤ nz ∧ c = node3 nx ny i j k) ∧
    (∀ i j k i' j' k', i ≤ nx → j ≤ ny → i' ≤ nx → j' ≤ ny → node3 nx ny i j k = node3 nx ny i' j' k' → i = i' ∧ j = j' ∧ k = k') := by
  refine ⟨fun _ _ _ hi hj hk => idx3_lt (by omega) (by omega) (by omega), fun _ h => ?_, fun _ _ _ _ _ _ hi hj hi' hj' h => ?_⟩
  · obtain ⟨i, j, k, hi, hj, hk, e⟩ := idx3_surj h
    exact ⟨i, j, k, by omega, by omega, by omega, e⟩
  · exact idx3_inj (by omega) (by omega) (by omega) (by omega) h

/-- **C28.**  The face numbers `0, …, nf - 1` are used for the x-, y- and z-faces, each for exactly one of them. -/
theorem face_numbering (nx ny nz : Nat) :
    (∀ f, f < (nx + 1) * ny * nz + nx * (ny + 1) * nz + nx * ny * (nz + 1) →
      (∃ i j k, i ≤ nx ∧ j < ny ∧ k < nz ∧ f = xface3 nx ny i j k) ∨ (∃ i j k, i < nx ∧ j ≤ ny ∧ k < nz ∧ f = yface3 nx ny nz i j k) ∨
      (∃ i j k, i < nx ∧ j < ny ∧ k ≤ nz ∧ f = zface3 nx ny nz i j k)) ∧
    (∀ i j k i' j' k', i ≤ nx → j < ny → i' ≤ nx → j' < ny → xface3 nx ny i j k = xface3 nx ny i' j' k' → i = i' ∧ j = j' ∧ k = k') ∧
    (∀ i j k i' j' k', i < nx → j ≤ ny → i' < nx → j' ≤ ny → yface3 nx ny nz i j k = yface3 nx ny nz i' j' k' → i = i' ∧ j = j' ∧ k = k') ∧
    (∀ i j k i' j' k', i < nx → j < ny → i' < nx → j' < ny → zface3 nx ny nz i j k = zface3 nx ny nz i' j' k' → i = i' ∧ j = j' ∧ k = k') ∧
    (∀ i j k i' j' k', i ≤ nx → j < ny → k < nz → xface3 nx ny i j k < yface3 nx ny nz i' j' k') ∧
    (∀ i j k i' j' k', i < nx → j ≤ ny → k < nz → yface3 nx ny nz i j k < zface3 nx ny nz i' j' k') :=
  ⟨fun _ h => face_cases h, fun _ _ _ _ _ _ hi hj hi' hj' h => xface3_inj hi hj hi' hj' h, fun _ _ _ _ _ _ hi hj hi' hj' h => yface3_inj hi hj hi' hj' h,
    fun _ _ _ _ _ _ hi hj hi' hj' h => zface3_inj hi hj hi' hj' h,
    fun _ _ _ _ _ _ hi hj hk => Nat.lt_of_lt_of_le (xface3_lt hi hj hk) (yface3_ge _ _ _),
    fun _ _ _ _ _ _ hi hj hk => Nat.lt_of_lt_of_le (yface3_lt hi hj hk) (zface3_ge _ _ _)⟩

/-! ### C28: orientation -/

/-- Scalar product. -/
def dot : List Rat → List Rat → Rat
  | a :: as, b :: bs => a * b + dot as bs
  | _, _ => 0

def vsub : List Rat → List Rat → List Rat
  | a :: as, b :: bs => (a - b) :: vsub as bs
  | _, _ => []

/-- The vector from the centroid of cell `c` to the centroid of face `f` has the sign `s` in the direction of the face normal. -/
def Grid.Outward (G : Grid) (d : Nat) (f c : Nat) (s : Rat) : Prop :=
  ∀ n fc cc, slice G.faceNormals (d * f) (d * f + d) = .ok n → slice G.faceCentroids (d * f) (d * f + d) = .ok fc →
    slice G.cellCentroids (d * c) (d * c + d) = .ok cc → 0 < s * dot n (vsub fc cc)

theorem len_pos {X : Nat → Rat} (h : ∀ i, X i < X (i + 1)) (i : Nat) : 0 < len X i := by
  unfold len; linarith [h i]

/-- **C28.**  In a grid with increasing grid lines, the face normal points out of the first neighbour and into the second. -/
theorem normals_point_from_first_to_second {nx ny nz : Nat} {X Y Z : Nat → Rat} {G : Grid} (hc : IsCart3d nx ny nz G) (hb : IsBoxes3d nx ny nz X Y Z G)
    (hX : ∀ i, X i < X (i + 1)) (hY : ∀ i, Y i < Y (i + 1)) (hZ : ∀ i, Z i < Z (i + 1)) (f : Nat) (hf : f < G.nf) (a b : Int) (hs : G.topo.Sides f a b) :
    (∀ c : Nat, a = c → G.Outward 3 f c 1) ∧ (∀ c : Nat, b = c → G.Outward 3 f c (-1)) := by
  have hX' := len_pos hX
  have hY' := len_pos hY
  have hZ' := len_pos hZ
  rw [hc.nf] at hf
  rcases face_cases hf with ⟨i, j, k, hi, hj, hk, rfl⟩ | ⟨i, j, k, hi, hj, hk, rfl⟩ | ⟨i, j, k, hi, hj, hk, rfl⟩
  · obtain ⟨_, _, _, s1, s2⟩ := hc.xface i j k hi hj hk
    obtain ⟨g1, g2, _⟩ := hb.xface i j k hi hj hk
    obtain ⟨t1, t2⟩ := hs
    rw [s1] at t1; rw [s2] at t2
    cases t1; cases t2
    have hp := mul_pos (hY' j) (hZ' k)
    constructor
    · intro c e n fc cc e1 e2 e3
      rw [before_eq] at e
      obtain ⟨h0, rfl⟩ := e
      rw [(hb.cell (i - 1) j k (by omega) hj hk).1] at e3
      rw [g1] at e1; rw [g2] at e2
      cases e1; cases e2; cases e3
      have hl := hX (i - 1)
      rw [show i - 1 + 1 = i by omega] at hl
      have : 0 < len Y j * len Z k * (X i - mid X (i - 1)) := by
        refine mul_pos hp ?_
        unfold mid
        rw [show i - 1 + 1 = i by omega]
        linarith
      simp only [dot, vsub]
      linarith
    · intro c e n fc cc e1 e2 e3
      rw [after_eq] at e
      obtain ⟨h0, rfl⟩ := e
      rw [(hb.cell i j k (by omega) hj hk).1] at e3
      rw [g1] at e1; rw [g2] at e2
      cases e1; cases e2; cases e3
      have : 0 < len Y j * len Z k * (mid X i - X i) := by
        refine mul_pos hp ?_
        unfold mid
        linarith [hX i]
      simp only [dot, vsub]
      linarith
  · obtain ⟨_, _, _, s1, s2⟩ := hc.yface i j k hi hj hk
    obtain ⟨g1, g2, _⟩ := hb.yface i j k hi hj hk
    obtain ⟨t1, t2⟩ := hs
    rw [s1] at t1; rw [s2] at t2
    cases t1; cases t2
    have hp := mul_pos (hX' i) (hZ' k)
    constructor
    · intro c e n fc cc e1 e2 e3
      rw [before_eq] at e
      obtain ⟨h0, rfl⟩ := e
      rw [(hb.cell i (j - 1) k hi (by omega) hk).1] at e3
      rw [g1] at e1; rw [g2] at e2
      cases e1; cases e2; cases e3
      have hl := hY (j - 1)
      rw [show j - 1 + 1 = j by omega] at hl
      have : 0 < len X i * len Z k * (Y j - mid Y (j - 1)) := by
        refine mul_pos hp ?_
        unfold mid
        rw [show j - 1 + 1 = j by omega]
        linarith
      simp only [dot, vsub]
      linarith
    · intro c e n fc cc e1 e2 e3
      rw [after_eq] at e
      obtain ⟨h0, rfl⟩ := e
      rw [(hb.cell i j k hi (by omega) hk).1] at e3
      rw [g1] at e1; rw [g2] at e2
      cases e1; cases e2; cases e3
      have : 0 < len X i * len Z k * (mid Y j - Y j) := by
        refine mul_pos hp ?_
        unfold mid
        linarith [hY j]
      simp only [dot, vsub]
      linarith
  · obtain ⟨_, _, _, s1, s2⟩ := hc.zface i j k hi hj hk
    obtain ⟨g1, g2, _⟩ := hb.zface i j k hi hj hk
    obtain ⟨t1, t2⟩ := hs
    rw [s1] at t1; rw [s2] at t2
    cases t1; cases t2
    have hp := mul_pos (hX' i) (hY' j)
    constructor
    · intro c e n fc cc e1 e2 e3
      rw [before_eq] at e
      obtain ⟨h0, rfl⟩ := e
      rw [(hb.cell i j (k - 1) hi hj (by omega)).1] at e3
      rw [g1] at e1; rw [g2] at e2
      cases e1; cases e2; cases e3
      have hl := hZ (k - 1)
      rw [show k - 1 + 1 = k by omega] at hl
      have : 0 < len X i * len Y j * (Z k - mid Z (k - 1)) := by
        refine mul_pos hp ?_
        unfold mid
        rw [show k - 1 + 1 = k by omega]
        linarith
      simp only [dot, vsub]
      linarith
    · intro c e n fc cc e1 e2 e3
      rw [after_eq] at e
      obtain ⟨h0, rfl⟩ := e
      rw [(hb.cell i j k hi hj (by omega)).1] at e3
      rw [g1] at e1; rw [g2] at e2
      cases e1; cases e2; cases e3
      have : 0 < len X i * len Y j * (mid Z k - Z k) := by
        refine mul_pos hp ?_
        unfold mid
        linarith [hZ k]
      simp only [dot, vsub]
      linarith

/-- Area vector of a plane quadrilateral with corners `p, q, r, s` in this order (half the cross product of the diagonals). -/
def areaVector : List Rat → List Rat → List Rat → List Rat → List Rat
  | [p0, p1, p2], [q0, q1, q2], [r0, r1, r2], [s0, s1, s2] =>
    [((r1 - p1) * (s2 - q2) - (r2 - p2) * (s1 - q1)) / 2, ((r2 - p2) * (s0 - q0) - (r0 - p0) * (s2 - q2)) / 2,
     ((r0 - p0) * (s1 - q1) - (r1 - p1) * (s0 - q0)) / 2]
  | _, _, _, _ => []

/-- **C29.**  The stored face normal is the area vector of the face's nodes in the stored order (right-hand rule), and the stored area
its length: the topology and the geometry describe the same faces. -/
theorem normals_match_nodes {nx ny nz : Nat} {X Y Z : Nat → Rat} {G : Grid} (hc : IsCart3d nx ny nz G) (hb : IsBoxes3d nx ny nz X Y Z G) (f : Nat)
    (hf : f < G.nf) : ∃ n0 n1 n2 n3 p0 p1 p2 p3 nrm area,
      slice G.faceNodes (4 * f) (4 * f + 4) = .ok [n0, n1, n2, n3] ∧
      slice G.nodeCoord (3 * n0) (3 * n0 + 3) = .ok p0 ∧ slice G.nodeCoord (3 * n1) (3 * n1 + 3) = .ok p1 ∧
      slice G.nodeCoord (3 * n2) (3 * n2 + 3) = .ok p2 ∧ slice G.nodeCoord (3 * n3) (3 * n3 + 3) = .ok p3 ∧
      slice G.faceNormals (3 * f) (3 * f + 3) = .ok nrm ∧ nrm = areaVector p0 p1 p2 p3 ∧
      G.faceAreas[f]? = some area ∧ area * area = dot nrm nrm := by
  rw [hc.nf] at hf
  rcases face_cases hf with ⟨i, j, k, hi, hj, hk, rfl⟩ | ⟨i, j, k, hi, hj, hk, rfl⟩ | ⟨i, j, k, hi, hj, hk, rfl⟩
  · obtain ⟨_, _, hn, _⟩ := hc.xface i j k hi hj hk
    obtain ⟨g1, _, g3⟩ := hb.xface i j k hi hj hk
    refine ⟨_, _, _, _, _, _, _, _, _, _, hn, hb.node i j k (by omega) (by omega) (by omega), hb.node i (j + 1) k (by omega) (by omega) (by omega),
      hb.node i (j + 1) (k + 1) (by omega) (by omega) (by omega), hb.node i j (k + 1) (by omega) (by omega) (by omega), g1, ?_, g3, ?_⟩
    · simp only [areaVector, len, List.cons.injEq, and_true]
      refine ⟨by ring, by ring, by ring⟩
    · simp only [dot]; ring
  · obtain ⟨_, _, hn, _⟩ := hc.yface i j k hi hj hk
    obtain ⟨g1, _, g3⟩ := hb.yface i j k hi hj hk
    refine ⟨_, _, _, _, _, _, _, _, _, _, hn, hb.node i j k (by omega) (by omega) (by omega), hb.node i j (k + 1) (by omega) (by omega) (by omega),
      hb.node (i + 1) j (k + 1) (by omega) (by omega) (by omega), hb.node (i + 1) j k (by omega) (by omega) (by omega), g1, ?_, g3, ?_⟩
    · simp only [areaVector, len, List.cons.injEq, and_true]
      refine ⟨by ring, by ring, by ring⟩
    · simp only [dot]; ring
  · obtain ⟨_, _, hn, _⟩ := hc.zface i j k hi hj hk
    obtain ⟨g1, _, g3⟩ := hb.zface i j k hi hj hk
    refine ⟨_, _, _, _, _, _, _, _, _, _, hn, hb.node i j k (by omega) (by omega) (by omega), hb.node (i + 1) j k (by omega) (by omega) (by omega),
      hb.node (i + 1) (j + 1) k (by omega) (by omega) (by omega), hb.node i (j + 1) k (by omega) (by omega) (by omega), g1, ?_, g3, ?_⟩
    · simp only [areaVector, len, List.cons.injEq, and_true]
      refine ⟨by ring, by ring, by ring⟩
    · simp only [dot]; ring

/-- **C28.**  In two dimensions: the face normal points out of the first neighbour and into the second. -/
theorem normals_point_from_first_to_second_2d {nx ny : Nat} {X Y : Nat → Rat} {G : Grid} (hc : IsCart2d nx ny G) (hb : IsBoxes2d nx ny X Y G)
    (hX : ∀ i, X i < X (i + 1)) (hY : ∀ i, Y i < Y (i + 1)) (f : Nat) (hf : f < G.nf) (a b : Int) (hs : G.topo.Sides f a b) :
    (∀ c : Nat, a = c → G.Outward 2 f c 1) ∧ (∀ c : Nat, b = c → G.Outward 2 f c (-1)) := by
  have hX' := len_pos hX
  have hY' := len_pos hY
  rw [hc.nf] at hf
  rcases face2_cases hf with ⟨i, j, hi, hj, rfl⟩ | ⟨i, j, hi, hj, rfl⟩
  · obtain ⟨_, _, _, s1, s2⟩ := hc.xface i j hi hj
    obtain ⟨g1, g2, _⟩ := hb.xface i j hi hj
    obtain ⟨t1, t2⟩ := hs
    rw [s1] at t1; rw [s2] at t2
    cases t1; cases t2
    constructor
    · intro c e n fc cc e1 e2 e3
      rw [before_eq] at e
      obtain ⟨h0, rfl⟩ := e
      rw [(hb.cell (i - 1) j (by omega) hj).1] at e3
      rw [g1] at e1; rw [g2] at e2
      cases e1; cases e2; cases e3
      have hl := hX (i - 1)
      rw [show i - 1 + 1 = i by omega] at hl
      have : 0 < len Y j * (X i - mid X (i - 1)) := by
        refine mul_pos (hY' j) ?_
        unfold mid
        rw [show i - 1 + 1 = i by omega]
        linarith
      simp only [dot, vsub]
      linarith
    · intro c e n fc cc e1 e2 e3
      rw [after_eq] at e
      obtain ⟨h0, rfl⟩ := e
      rw [(hb.cell i j (by omega) hj).1] at e3
      rw [g1] at e1; rw [g2] at e2
      cases e1; cases e2; cases e3
      have : 0 < len Y j * (mid X i - X i) := by
        refine mul_pos (hY' j) ?_
        unfold mid
        linarith [hX i]
      simp only [dot, vsub]
      linarith
  · obtain ⟨_, _, _, s1, s2⟩ := hc.yface i j hi hj
    obtain ⟨g1, g2, _⟩ := hb.yface i j hi hj
    obtain ⟨t1, t2⟩ := hs
    rw [s1] at t1; rw [s2] at t2
    cases t1; cases t2
    constructor
    · intro c e n fc cc e1 e2 e3
      rw [before_eq] at e
      obtain ⟨h0, rfl⟩ := e
      rw [(hb.cell i (j - 1) hi (by omega)).1] at e3
      rw [g1] at e1; rw [g2] at e2
      cases e1; cases e2; cases e3
      have hl := hY (j - 1)
      rw [show j - 1 + 1 = j by omega] at hl
      have : 0 < len X i * (Y j - mid Y (j - 1)) := by
        refine mul_pos (hX' i) ?_
        unfold mid
        rw [show j - 1 + 1 = j by omega]
        linarith
      simp only [dot, vsub]
      linarith
    · intro c e n fc cc e1 e2 e3
      rw [after_eq] at e
      obtain ⟨h0, rfl⟩ := e
      rw [(hb.cell i j hi (by omega)).1] at e3
      rw [g1] at e1; rw [g2] at e2
      cases e1; cases e2; cases e3
      have : 0 < len X i * (mid Y j - Y j) := by
        refine mul_pos (hX' i) ?_
        unfold mid
        linarith [hY j]
      simp only [dot, vsub]
      linarith

/-- The normal of the directed edge from `p` to `q`: the edge turned clockwise by a right angle. -/
def edgeNormal : List Rat → List Rat → List Rat
  | [p0, p1], [q0, q1] => [q1 - p1, -(q0 - p0)]
  | _, _ => []

/-- **C29.**  In two dimensions the stored normal of a face is its edge turned by a right angle, and the stored area its length. -/
theorem normals_match_nodes_2d {nx ny : Nat} {X Y : Nat → Rat} {G : Grid} (hc : IsCart2d nx ny G) (hb : IsBoxes2d nx ny X Y G) (f : Nat) (hf : f < G.nf) :
    ∃ n0 n1 p0 p1 nrm area, slice G.faceNodes (2 * f) (2 * f + 2) = .ok [n0, n1] ∧
      slice G.nodeCoord (2 * n0) (2 * n0 + 2) = .ok p0 ∧ slice G.nodeCoord (2 * n1) (2 * n1 + 2) = .ok p1 ∧
      slice G.faceNormals (2 * f) (2 * f + 2) = .ok nrm ∧ nrm = edgeNormal p0 p1 ∧ G.faceAreas[f]? = some area ∧ area * area = dot nrm nrm := by
  rw [hc.nf] at hf
  rcases face2_cases hf with ⟨i, j, hi, hj, rfl⟩ | ⟨i, j, hi, hj, rfl⟩
  · obtain ⟨_, _, hn, _⟩ := hc.xface i j hi hj
    obtain ⟨g1, _, g3⟩ := hb.xface i j hi hj
    refine ⟨_, _, _, _, _, _, hn, hb.node i j (by omega) (by omega), hb.node i (j + 1) (by omega) (by omega), g1, ?_, g3, ?_⟩
    · simp [edgeNormal, len]
    · simp only [dot]; ring
  · obtain ⟨_, _, hn, _⟩ := hc.yface i j hi hj
    obtain ⟨g1, _, g3⟩ := hb.yface i j hi hj
    refine ⟨_, _, _, _, _, _, hn, hb.node (i + 1) j (by omega) (by omega), hb.node i j (by omega) (by omega), g1, ?_, g3, ?_⟩
    · simp [edgeNormal, len]
    · simp only [dot]; ring

/-- **C28.**  The numbering in two dimensions. -/
theorem numbering_2d (nx ny : Nat) :
    (∀ c, c < nx * ny → ∃ i j, i < nx ∧ j < ny ∧ c = cell2 nx i j) ∧
    (∀ i j i' j', i < nx → i' < nx → cell2 nx i j = cell2 nx i' j' → i = i' ∧ j = j') ∧
    (∀ f, f < (nx + 1) * ny + nx * (ny + 1) →
      (∃ i j, i ≤ nx ∧ j < ny ∧ f = xface2 nx i j) ∨ (∃ i j, i < nx ∧ j ≤ ny ∧ f = yface2 nx ny i j)) ∧
    (∀ i j i' j', i ≤ nx → i' ≤ nx → xface2 nx i j = xface2 nx i' j' → i = i' ∧ j = j') ∧
    (∀ i j i' j', i < nx → i' < nx → yface2 nx ny i j = yface2 nx ny i' j' → i = i' ∧ j = j') ∧
    (∀ i j i' j', i ≤ nx → j < ny → xface2 nx i j < yface2 nx ny i' j') :=
  ⟨fun _ h => idx2_surj h, fun _ _ _ _ hi hi' h => cell2_inj hi hi' h, fun _ h => face2_cases h, fun _ _ _ _ hi hi' h => xface2_inj hi hi' h,
    fun _ _ _ _ hi hi' h => yface2_inj hi hi' h, fun _ _ _ _ hi hj => Nat.lt_of_lt_of_le (xface2_lt hi hj) (yface2_ge _ _)⟩

/-- **C29.**  In a layered grid node `(i, j, k)` lies at `(x_i, y_j, z_k + depth of pillar (i, j))`. -/
theorem layered_nodes (junk : Nat → Rat) (nx ny nz : Nat) (x y z depth : List Rat) (X Y Z D : Nat → Rat) (hx : Holds x nx X) (hy : Holds y ny Y)
    (hz : Holds z nz Z) (hd : ∀ p, p < (nx + 1) * (ny + 1) → depth[p]? = some (D p)) :
    ∃ s, layeredNodes nx ny nz x y z depth ⟨realloc junk [] ((nx + 1) * (ny + 1) * (nz + 1) * 3), 0⟩ = .ok s ∧
      ∀ i j k, i ≤ nx → j ≤ ny → k ≤ nz →
        slice s.buf (3 * node3 nx ny i j k) (3 * node3 nx ny i j k + 3) = .ok [X i, Y j, Z k + D (node2 nx i j)] := by
  have hbody : ∀ k, k < nz + 1 → ∀ s l, coordRep 3 ((nx + 1) * (ny + 1) * (nz + 1)) s l →
      l.length + (tab2 (nx + 1) (ny + 1) (fun i j => [X i, Y j, Z k + D (node2 nx i j)])).length ≤ (nx + 1) * (ny + 1) * (nz + 1) →
      ∃ s', (do
          let r ← loop (ny + 1) (fun j => loop (nx + 1) (fun i (r : Cur Rat × Nat) => do
            let x0 ← rd x i
            let y0 ← rd y j
            let z0 ← rd z k
            let d ← rd depth r.2
            let c ← r.1.puts [x0, y0, z0 + d]
            .ok (c, r.2 + 1))) (s, 0)
          .ok r.1) = Except.ok s' ∧ coordRep 3 ((nx + 1) * (ny + 1) * (nz + 1)) s' (l ++ tab2 (nx + 1) (ny + 1) (fun i j => [X i, Y j, Z k + D (node2 nx i j)])) := by
    intro k hk s l h hc
    rw [length_tab2] at hc
    obtain ⟨t, ht, hP⟩ := loop_inv (n := ny + 1) (s := (s, 0))
      (f := fun j => loop (nx + 1) (fun i (r : Cur Rat × Nat) => do
            let x0 ← rd x i
            let y0 ← rd y j
            let z0 ← rd z k
            let d ← rd depth r.2
            let c ← r.1.puts [x0, y0, z0 + d]
            .ok (c, r.2 + 1)))
      (fun j t => t.2 = (nx + 1) * j ∧ coordRep 3 ((nx + 1) * (ny + 1) * (nz + 1)) t.1
        (l ++ tab2 (nx + 1) j (fun i j => [X i, Y j, Z k + D (node2 nx i j)])))
      ⟨rfl, by simpa [tab2] using h⟩
      (by
        rintro j ⟨c, n⟩ hj ⟨h1, h2⟩
        simp only at h1 h2
        subst h1
        obtain ⟨u, hu, hQ⟩ := loop_inv (n := nx + 1) (s := (c, (nx + 1) * j))
          (f := fun i (r : Cur Rat × Nat) => do
            let x0 ← rd x i
            let y0 ← rd y j
            let z0 ← rd z k
            let d ← rd depth r.2
            let c ← r.1.puts [x0, y0, z0 + d]
            .ok (c, r.2 + 1))
          (fun i t => t.2 = i + (nx + 1) * j ∧ coordRep 3 ((nx + 1) * (ny + 1) * (nz + 1)) t.1
            (l ++ tab2 (nx + 1) j (fun i j => [X i, Y j, Z k + D (node2 nx i j)]) ++ (List.range i).map (fun i => [X i, Y j, Z k + D (node2 nx i j)])))
          ⟨by simp, by simpa using h2⟩
          (by
            rintro i ⟨c, n⟩ hi ⟨h1, h2⟩
            simp only at h1 h2
            subst h1
            have hlt := idx2_lt (a := nx + 1) (b := ny + 1) hi hj
            simp only [hx.rd (i := i) (by omega), hy.rd (i := j) (by omega), hz.rd (i := k) (by omega), rd_of_getElem? (hd _ hlt), bind_ok]
            obtain ⟨s', e, hs'⟩ := coord_rep [X i, Y j, Z k + D (node2 nx i j)] rfl h2
              (by
                simp only [List.length_append, length_tab2, List.length_map, List.length_range]
                have : (nx + 1) * j + (nx + 1) ≤ (nx + 1) * (ny + 1) := by
                  rw [← Nat.mul_succ]; exact Nat.mul_le_mul_left _ hj
                omega)
            unfold node2 at e
            rw [e, bind_ok]
            refine ⟨_, rfl, by simp only; omega, ?_⟩
            simp only
            rw [List.range_succ, List.map_append, ← List.append_assoc]
            exact hs')
        refine ⟨u, hu, by rw [hQ.1, Nat.mul_succ]; omega, ?_⟩
        have := hQ.2
        rw [List.append_assoc] at this
        unfold tab2 at this ⊢
        rw [List.range_succ (n := j), List.flatMap_append, List.flatMap_singleton, ← List.map_eq_flatMap]
        exact this)
    rw [ht, bind_ok]
    exact ⟨_, rfl, hP.2⟩
  have hlen : (realloc junk [] ((nx + 1) * (ny + 1) * (nz + 1) * 3)).length = (nx + 1) * (ny + 1) * (nz + 1) * 3 := by simp
  obtain ⟨s, e, r1, r2⟩ := loop_emit (coordRep 3 ((nx + 1) * (ny + 1) * (nz + 1))) ((nx + 1) * (ny + 1) * (nz + 1))
    (s := ⟨realloc junk [] ((nx + 1) * (ny + 1) * (nz + 1) * 3), 0⟩) (l := [])
    (fun k => tab2 (nx + 1) (ny + 1) (fun i j => [X i, Y j, Z k + D (node2 nx i j)])) hbody ⟨⟨rfl, hlen, rfl⟩, by simp⟩
    (by
      have := length_tab3 (nx + 1) (ny + 1) (nz + 1) (fun i j k => [X i, Y j, Z k + D (node2 nx i j)])
      unfold tab3 at this
      rw [this]
      simp)
  refine ⟨s, e, ?_⟩
  intro i j k hi hj hk
  have hg := Cur.rep_full r1 (by
    rw [length_flatMap_const (f := id) (d := 3) r2]
    have := length_tab3 (nx + 1) (ny + 1) (nz + 1) (fun i j k => [X i, Y j, Z k + D (node2 nx i j)])
    unfold tab3 at this
    rw [List.nil_append, this])
  rw [hg]
  exact slice_flatMap_const (f := id) r2 (getElem?_tab3 (a := nx + 1) (b := ny + 1) (c := nz + 1) (r := fun i j k => [X i, Y j, Z k + D (node2 nx i j)])
    (by omega) (by omega) (by omega))

/-- **C28, limit.**  With a zero dimension the neighbour lists refer to cells that do not exist. -/
theorem empty_dimension_is_invalid : ∃ G, createCart2d ⟨fun _ => 0, fun _ => 0, fun _ => 0⟩ 0 1 1 1 = .ok G ∧ G.nc = 0 ∧ G.topo.Sides 0 (-1) 0 :=
  ⟨_, rfl, rfl, rfl, rfl⟩

/-! ### Concrete cases -/

example : Holds [0, 1, 4] 2 (fun i => (i : Rat) ^ 2) := by
  intro i hi
  match i, hi with
  | 0, _ => decide +kernel
  | 1, _ => decide +kernel
  | 2, _ => decide +kernel
example : ∀ i : Nat, (fun i : Nat => (i : Rat) * 2) i < (fun i : Nat => (i : Rat) * 2) (i + 1) := by
  intro i; push_cast; linarith
example : (createTensor2d ⟨fun _ => 7, fun _ => 7, fun _ => 7⟩ 2 1 [0, 1, 4] [0, 3]).map (fun G => (G.cellVolumes, G.faceCells, G.cellFaces)) =
    .ok ([3, 9], [-1, 0, 0, 1, 1, -1, -1, 0, -1, 1, 0, -1, 1, -1], [0, 3, 1, 5, 1, 4, 2, 6]) := by decide +kernel

end Opm.Cart
