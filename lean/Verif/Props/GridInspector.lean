import Verif.Proofs.GridInspector
import Mathlib.Tactic.IntervalCases
/-!
# C129: inspecting corner-point grids

The logical coordinates of a cell invert its number.  Volumes are the mean thickness times the area by the shoelace formula.  The limits of the grid are the least and the greatest coordinates.  Dips are the mean slope of the edges that do not touch the top or the bottom of the model, and not a number if all edges touch.
-/

namespace Opm.GridInspector.Props
open Opm Opm.GridInspector

variable {I : Inspector}

/-- **C129**: the logical coordinates of the cell with number `i + nx * (j + ny * k)` are `(i, j, k)`. -/
theorem logical_coords {i j : Nat} (k : Nat) (hi : i < I.nx) (hj : j < I.ny) :
    logicalCoords I (i + I.nx * (j + I.ny * k)) = .ok (i, j, k) :=
  logical_of hi hj rfl rfl

/-- **C129**: the depths of the corners of a cell, x fastest. -/
theorem depths (W : WellSized I) {i j k : Nat} (hi : i < I.nx) (hj : j < I.ny) (hk : k < I.nz) :
    cellZvals I i j k = .ok [cornerZ I i j k 0 0 0, cornerZ I i j k 1 0 0, cornerZ I i j k 0 1 0, cornerZ I i j k 1 1 0,
      cornerZ I i j k 0 0 1, cornerZ I i j k 1 0 1, cornerZ I i j k 0 1 1, cornerZ I i j k 1 1 1] := by
  unfold cellZvals
  rw [if_neg (by simp [W.zcorn]), cornerDepths_ok W hi hj hk]

/-- **C129**: the volume of a cell is the area of its column times the mean of the thicknesses along its four pillars. -/
theorem volume (W : WellSized I) {i j k : Nat} (hi : i < I.nx) (hj : j < I.ny) (hk : k < I.nz) :
    cellVolume I i j k = .ok (mean [thickness I i j k 0 0, thickness I i j k 1 0, thickness I i j k 0 1, thickness I i j k 1 1]
      * columnArea I i j) := by
  unfold cellVolume
  simp only [checkCoords_ok hi hj hk, checkSizes_ok W, bind_ok, Int.toNat_natCast]
  rw [rd_x W (i := i) (j := j) (by omega) (by omega) (by ring), rd_x W (i := i + 1) (j := j) (by omega) (by omega) (by ring),
    rd_x W (i := i) (j := j + 1) (by omega) (by omega) (by ring), rd_x W (i := i + 1) (j := j + 1) (by omega) (by omega) (by ring),
    rd_y W (i := i) (j := j) (by omega) (by omega) (by ring), rd_y W (i := i + 1) (j := j) (by omega) (by omega) (by ring),
    rd_y W (i := i) (j := j + 1) (by omega) (by omega) (by ring), rd_y W (i := i + 1) (j := j + 1) (by omega) (by omega) (by ring),
    cornerDepths_ok W hi hj hk]
  simp only [bind_ok, List.getD_cons_zero, List.getD_cons_succ]
  congr 1
  simp only [mean, thickness, columnArea, area4, cross, List.sum_cons, List.sum_nil, List.length_cons, List.length_nil]
  push_cast
  ring

/-- **C129**: on a tilted rectangle, the volume is the product of the three lengths. -/
theorem volume_tilted (W : WellSized I) {X Y Z : Nat → Rat} {a b : Rat} (T : Tilted I X Y Z a b) {i j k : Nat}
    (hi : i < I.nx) (hj : j < I.ny) (hk : k < I.nz) :
    cellVolume I i j k = .ok ((X (i + 1) - X i) * (Y (j + 1) - Y j) * (Z (2 * k + 1) - Z (2 * k))) := by
  rw [volume W hi hj hk]
  congr 1
  simp only [mean, thickness, columnArea, area4, cross, List.sum_cons, List.sum_nil, List.length_cons, List.length_nil]
  rw [T.z i j k 0 0 0, T.z i j k 0 0 1, T.z i j k 1 0 0, T.z i j k 1 0 1, T.z i j k 0 1 0, T.z i j k 0 1 1, T.z i j k 1 1 0, T.z i j k 1 1 1,
    T.x i j, T.x (i + 1) j, T.x i (j + 1), T.x (i + 1) (j + 1), T.y i j, T.y (i + 1) j, T.y i (j + 1), T.y (i + 1) (j + 1)] <;> try omega
  push_cast
  ring_nf

/-- **C129**: coordinates outside the grid, and keywords of a wrong size, are reported by an exception. -/
theorem rejected {i j k : Int} (h : ¬(0 ≤ i ∧ i < I.nx ∧ 0 ≤ j ∧ j < I.ny ∧ 0 ≤ k ∧ k < I.nz) ∨ ¬WellSized I) :
    cellVolume I i j k = .error .thrown ∧ cellDips I i j k = .error .thrown := by
  have key : checkCoords I i j k = .error .thrown ∨ (checkCoords I i j k = .ok () ∧ checkSizes I = .error .thrown) := by
    by_cases g : 0 ≤ i ∧ i < I.nx ∧ 0 ≤ j ∧ j < I.ny ∧ 0 ≤ k ∧ k < I.nz
    · right
      refine ⟨by unfold checkCoords; rw [if_neg (by omega), if_neg (by omega), if_neg (by omega)], ?_⟩
      have hW := h.resolve_left (fun n => n g)
      unfold checkSizes
      split
      · rfl
      · split
        · rfl
        · rename_i h1 h2
          exact absurd ⟨by omega, by omega⟩ hW
    · left
      unfold checkCoords
      split
      · rfl
      · split
        · rfl
        · rw [if_pos (by omega)]
  unfold cellVolume cellDips
  rcases key with h | ⟨h, h'⟩
  · rw [h]; exact ⟨rfl, rfl⟩
  · rw [h, h']; exact ⟨rfl, rfl⟩

/-- **C129**: the limits of the grid are the least and the greatest x, y and z. -/
theorem limits (hc : I.coord.length = 6 * ((I.nx + 1) * (I.ny + 1))) (hz : I.zcorn ≠ []) (hs : I.specgrid = true) :
    ∃ r, gridLimits I = .ok r ∧ Range (xs I) r.1 ∧ Range (ys I) r.2.1 ∧ Range {z | z ∈ I.zcorn} r.2.2 :=
  gridLimits_ok hc hz hs

theorem counts_iff {i j k : Nat} {e f : Nat × Nat} {r : Rat × Rat} (h : Range {z | z ∈ I.zcorn} r) :
    (EdgeCounts I i j k e f 0 ↔ ¬(cornerZ I i j k e.1 e.2 0 = r.1 ∨ cornerZ I i j k f.1 f.2 0 = r.1)) ∧
      (EdgeCounts I i j k e f 1 ↔ ¬(cornerZ I i j k e.1 e.2 1 = r.2 ∨ cornerZ I i j k f.1 f.2 1 = r.2)) := by
  constructor
  · rw [EdgeCounts, if_pos rfl]; exact counts_top h.1
  · rw [EdgeCounts, if_neg (by omega)]; exact counts_bottom h.2

theorem dip_of (z : List Rat) {length lo hi : Rat} (hl : length ≠ 0)
    (e : (Nat × Nat) × (Nat × Nat) × (Nat × Nat) × (Nat × Nat)) (l : List Rat)
    (h : l = (if z.getD e.1.1 0 = lo ∨ z.getD e.1.2 0 = lo then [] else [(z.getD e.1.2 0 - z.getD e.1.1 0) / length])
      ++ (if z.getD e.2.1.1 0 = lo ∨ z.getD e.2.1.2 0 = lo then [] else [(z.getD e.2.1.2 0 - z.getD e.2.1.1 0) / length])
      ++ (if z.getD e.2.2.1.1 0 = hi ∨ z.getD e.2.2.1.2 0 = hi then [] else [(z.getD e.2.2.1.2 0 - z.getD e.2.2.1.1 0) / length])
      ++ (if z.getD e.2.2.2.1 0 = hi ∨ z.getD e.2.2.2.2 0 = hi then [] else [(z.getD e.2.2.2.2 0 - z.getD e.2.2.2.1 0) / length])) :
    dip z length lo hi e = if l = [] then .error .nonFinite else .ok (mean l) := by
  unfold dip
  rw [edge_ok hl, edge_ok hl, edge_ok hl, edge_ok hl]
  simp only [bind_ok]
  subst h
  by_cases h1 : z.getD e.1.1 0 = lo ∨ z.getD e.1.2 0 = lo <;> by_cases h2 : z.getD e.2.1.1 0 = lo ∨ z.getD e.2.1.2 0 = lo <;>
    by_cases h3 : z.getD e.2.2.1.1 0 = hi ∨ z.getD e.2.2.1.2 0 = hi <;> by_cases h4 : z.getD e.2.2.2.1 0 = hi ∨ z.getD e.2.2.2.2 0 = hi <;>
    simp only [h1, h2, h3, h4, if_true, if_false] <;> simp [fdiv, mean, add_assoc]

theorem rises_x {i j k : Nat} {r : Rat × Rat} (h : Range {z | z ∈ I.zcorn} r) (length : Rat) (z : List Rat)
    (hz : z = [cornerZ I i j k 0 0 0, cornerZ I i j k 1 0 0, cornerZ I i j k 0 1 0, cornerZ I i j k 1 1 0,
      cornerZ I i j k 0 0 1, cornerZ I i j k 1 0 1, cornerZ I i j k 0 1 1, cornerZ I i j k 1 1 1]) (hl : length ≠ 0) :
    dip z length r.1 r.2 ((0, 1), (2, 3), (4, 5), (6, 7)) =
      if rises I i j k length xEdges = [] then .error .nonFinite else .ok (mean (rises I i j k length xEdges)) := by
  apply dip_of z hl
  subst hz
  simp only [rises, xEdges, List.filter_cons, List.filter_nil, (counts_iff h).1, (counts_iff h).2, decide_eq_true_eq,
    List.getD_cons_zero, List.getD_cons_succ, ite_not]
  split_ifs <;> rfl

theorem rises_y {i j k : Nat} {r : Rat × Rat} (h : Range {z | z ∈ I.zcorn} r) (length : Rat) (z : List Rat)
    (hz : z = [cornerZ I i j k 0 0 0, cornerZ I i j k 1 0 0, cornerZ I i j k 0 1 0, cornerZ I i j k 1 1 0,
      cornerZ I i j k 0 0 1, cornerZ I i j k 1 0 1, cornerZ I i j k 0 1 1, cornerZ I i j k 1 1 1]) (hl : length ≠ 0) :
    dip z length r.1 r.2 ((0, 2), (1, 3), (4, 6), (5, 7)) =
      if rises I i j k length yEdges = [] then .error .nonFinite else .ok (mean (rises I i j k length yEdges)) := by
  apply dip_of z hl
  subst hz
  simp only [rises, yEdges, List.filter_cons, List.filter_nil, (counts_iff h).1, (counts_iff h).2, decide_eq_true_eq,
    List.getD_cons_zero, List.getD_cons_succ, ite_not]
  split_ifs <;> rfl

theorem dips_eq (W : WellSized I) (hs : I.specgrid = true) {i j k : Nat} (hi : i < I.nx) (hj : j < I.ny) (hk : k < I.nz)
    (hx : pillarX I i j ≠ pillarX I (i + 1) j) (hy : pillarY I i j ≠ pillarY I i (j + 1)) :
    cellDips I i j k = (if xRises I i j k = [] then .error .nonFinite else .ok (mean (xRises I i j k)) : M Rat) >>= fun dx =>
      (if yRises I i j k = [] then .error .nonFinite else .ok (mean (yRises I i j k)) : M Rat) >>= fun dy => .ok (dx, dy) := by
  have ne : I.zcorn ≠ [] := by
    intro e
    have := W.zcorn
    rw [e, List.length_nil] at this
    have pos : 0 < I.nx * I.ny * I.nz := Nat.mul_pos (Nat.mul_pos (by omega) (by omega)) (by omega)
    omega
  obtain ⟨r, hr, -, -, hz⟩ := gridLimits_ok W.coord ne hs
  unfold cellDips
  simp only [checkCoords_ok hi hj hk, checkSizes_ok W, bind_ok, Int.toNat_natCast]
  rw [depths W hi hj hk, rd_x W (i := i + 1) (j := j) (by omega) (by omega) (by ring), rd_x W (i := i) (j := j) (by omega) (by omega) (by ring),
    rd_y W (i := i) (j := j + 1) (by omega) (by omega) (by ring), rd_y W (i := i) (j := j) (by omega) (by omega) (by ring), hr]
  simp only [bind_ok]
  rw [rises_x hz _ _ rfl (by intro e; apply hx; linarith), rises_y hz _ _ rfl (by intro e; apply hy; linarith)]
  rfl

/-- **C129**: the dips are the mean increase of the depth over length, of the edges along x and along y that do not touch the top or the bottom of the model. -/
theorem dips_partial (W : WellSized I) (hs : I.specgrid = true) {i j k : Nat} (hi : i < I.nx) (hj : j < I.ny) (hk : k < I.nz)
    (hx : pillarX I i j ≠ pillarX I (i + 1) j) (hy : pillarY I i j ≠ pillarY I i (j + 1))
    (ex : xRises I i j k ≠ []) (ey : yRises I i j k ≠ []) :
    cellDips I i j k = .ok (mean (xRises I i j k), mean (yRises I i j k)) := by
  rw [dips_eq W hs hi hj hk hx hy, if_neg ex, if_neg ey]
  rfl

/-- **C129**, failure: if all edges along x, or all along y, touch the top or the bottom of the model, the dips are not numbers. -/
theorem dips_fail (W : WellSized I) (hs : I.specgrid = true) {i j k : Nat} (hi : i < I.nx) (hj : j < I.ny) (hk : k < I.nz)
    (hx : pillarX I i j ≠ pillarX I (i + 1) j) (hy : pillarY I i j ≠ pillarY I i (j + 1))
    (e : xRises I i j k = [] ∨ yRises I i j k = []) : cellDips I i j k = .error .nonFinite := by
  rw [dips_eq W hs hi hj hk hx hy]
  by_cases ex : xRises I i j k = []
  · rw [if_pos ex]; rfl
  · rw [if_neg ex, if_pos (e.resolve_left ex)]; rfl

theorem mean_const {l : List Rat} {a : Rat} (h : ∀ x ∈ l, x = a) (hl : l ≠ []) : mean l = a := by
  rw [List.eq_replicate_of_mem h, mean, List.sum_replicate, List.length_replicate, nsmul_eq_mul]
  have : (l.length : Rat) ≠ 0 := by
    simpa using hl
  field_simp

/-- **C129**: on a tilted rectangle the dips are the two slopes. -/
theorem dips_tilted_partial (W : WellSized I) (hs : I.specgrid = true) {X Y Z : Nat → Rat} {a b : Rat} (T : Tilted I X Y Z a b) {i j k : Nat}
    (hi : i < I.nx) (hj : j < I.ny) (hk : k < I.nz) (ex : xRises I i j k ≠ []) (ey : yRises I i j k ≠ []) :
    cellDips I i j k = .ok (a, b) := by
  have hx := T.dx i hi
  have hy := T.dy j hj
  have px : pillarX I i j = X i := T.x i j (by omega) (by omega)
  have px' : pillarX I (i + 1) j = X (i + 1) := T.x (i + 1) j (by omega) (by omega)
  have py : pillarY I i j = Y j := T.y i j (by omega) (by omega)
  have py' : pillarY I i (j + 1) = Y (j + 1) := T.y i (j + 1) (by omega) (by omega)
  rw [dips_partial W hs hi hj hk (by rwa [px, px']) (by rwa [py, py']) ex ey]
  congr 1
  have nx : X (i + 1) - X i ≠ 0 := fun e => hx (by linarith)
  have ny : Y (j + 1) - Y j ≠ 0 := fun e => hy (by linarith)
  have z := fun s t c hs ht hc => T.z i j k s t c hi hj hk hs ht hc
  congr 1
  · apply mean_const _ ex
    intro v hv
    simp only [xRises, rises, List.mem_map, List.mem_filter, px, px'] at hv
    obtain ⟨e, ⟨he, -⟩, rfl⟩ := hv
    simp only [xEdges, List.mem_cons, List.not_mem_nil, or_false] at he
    rcases he with rfl | rfl | rfl | rfl <;>
    · rw [z _ _ _ (by simp) (by simp) (by simp), z _ _ _ (by simp) (by simp) (by simp), div_eq_iff nx]
      simp only [Nat.add_zero]
      ring
  · apply mean_const _ ey
    intro v hv
    simp only [yRises, rises, List.mem_map, List.mem_filter, py, py'] at hv
    obtain ⟨e, ⟨he, -⟩, rfl⟩ := hv
    simp only [yEdges, List.mem_cons, List.not_mem_nil, or_false] at he
    rcases he with rfl | rfl | rfl | rfl <;>
    · rw [z _ _ _ (by simp) (by simp) (by simp), z _ _ _ (by simp) (by simp) (by simp), div_eq_iff ny]
      simp only [Nat.add_zero]
      ring

/-- **C129**: which decks are accepted, and where the size comes from. -/
theorem accepted (d : Deck) :
    (∀ I, make d = .ok I → d.coord = some I.coord ∧ d.zcorn = some I.zcorn ∧ I.specgrid = d.specgrid.isSome ∧
      (d.specgrid.or d.dimens) = some (I.nx, I.ny, I.nz)) ∧
    (make d = .error .thrown ↔ d.coord = none ∨ d.zcorn = none ∨ (d.specgrid = none ∧ d.dimens = none)) := by
  obtain ⟨c, z, s, m⟩ := d
  rcases c with _ | c <;> rcases z with _ | z <;> rcases s with _ | ⟨s1, s2, s3⟩ <;> rcases m with _ | ⟨m1, m2, m3⟩ <;>
    simp [make] <;> rintro I rfl <;> simp

/-- **C129**, failure: from a deck with `DIMENS` only, the inspector is made, but it has neither limits nor dips. -/
theorem dimens_fails {d : Deck} (hs : d.specgrid = none) (h : make d = .ok I) (W : WellSized I) {i j k : Nat}
    (hi : i < I.nx) (hj : j < I.ny) (hk : k < I.nz) :
    gridLimits I = .error .thrown ∧ cellDips I i j k = .error .thrown := by
  have s : I.specgrid = false := by rw [((accepted d).1 I h).2.2.1, hs]; rfl
  have g : gridLimits I = .error .thrown := by unfold gridLimits; rw [if_pos s]
  refine ⟨g, ?_⟩
  unfold cellDips
  simp only [checkCoords_ok hi hj hk, checkSizes_ok W, bind_ok, Int.toNat_natCast]
  rw [depths W hi hj hk, rd_x W (i := i + 1) (j := j) (by omega) (by omega) (by ring), rd_x W (i := i) (j := j) (by omega) (by omega) (by ring),
    rd_y W (i := i) (j := j + 1) (by omega) (by omega) (by ring), rd_y W (i := i) (j := j) (by omega) (by omega) (by ring), g]
  rfl

/-! ## Concrete cases -/

/-- Two layers of one cell, with slopes 1/2 and 1/4, of thickness 1 and 3. -/
def tilted : Inspector where
  coord := [0, 0, 0, 0, 0, 9,  2, 0, 0, 2, 0, 9,  0, 4, 0, 0, 4, 9,  2, 4, 0, 2, 4, 9]
  zcorn := [5, 6, 6, 7, 6, 7, 7, 8, 6, 7, 7, 8, 9, 10, 10, 11]
  specgrid := true
  nx := 1
  ny := 1
  nz := 2

/-- A flat cell. -/
def flat : Inspector where
  coord := [0, 0, 0, 0, 0, 9,  2, 0, 0, 2, 0, 9,  0, 4, 0, 0, 4, 9,  2, 4, 0, 2, 4, 9]
  zcorn := [5, 5, 5, 5, 6, 6, 6, 6]
  specgrid := true
  nx := 1
  ny := 1
  nz := 1

example : WellSized tilted := ⟨rfl, rfl⟩

theorem tilted_tilted : Tilted tilted (fun i => 2 * i) (fun j => 4 * j) (fun n => if n = 0 then 5 else if n = 3 then 9 else 6) (1 / 2) (1 / 4) where
  x i j hi hj := by
    simp only [tilted] at hi hj
    interval_cases i <;> interval_cases j <;> decide +kernel
  y i j hi hj := by
    simp only [tilted] at hi hj
    interval_cases i <;> interval_cases j <;> decide +kernel
  z i j k s t c hi hj hk hs ht hc := by
    simp only [tilted] at hi hj hk
    interval_cases i; interval_cases j
    interval_cases k <;> interval_cases s <;> interval_cases t <;> interval_cases c <;> decide +kernel
  dx i _ := by push_cast; intro h; linarith
  dy i _ := by push_cast; intro h; linarith

example : cellVolume tilted 0 0 1 = .ok 24 := by decide +kernel
example : cellDips tilted 0 0 1 = .ok (1 / 2, 1 / 4) := by decide +kernel
example : gridLimits tilted = .ok ((0, 2), (0, 4), (5, 11)) := by decide +kernel
example : logicalCoords { tilted with nx := 3, ny := 4 } 23 = .ok (2, 3, 1) := by decide +kernel

/-- **C129**, failure: a flat cell that is the whole model has no dips, although all its edges have slope zero. -/
theorem flat_fails : WellSized flat ∧ cellDips flat 0 0 0 = .error .nonFinite := ⟨⟨rfl, rfl⟩, by decide +kernel⟩

/-- The hypotheses of `dips_tilted_partial` are met. -/
example : xRises tilted 0 0 1 ≠ [] ∧ yRises tilted 0 0 1 ≠ [] := by
  have h : cellDips tilted ((0 : Nat) : Int) ((0 : Nat) : Int) ((1 : Nat) : Int) = .ok (1 / 2, 1 / 4) := by decide +kernel
  constructor <;> intro e
  · rw [dips_fail ⟨rfl, rfl⟩ rfl (by decide) (by decide) (by decide) (by decide +kernel) (by decide +kernel) (Or.inl e)] at h
    cases h
  · rw [dips_fail ⟨rfl, rfl⟩ rfl (by decide) (by decide) (by decide) (by decide +kernel) (by decide +kernel) (Or.inr e)] at h
    cases h

/-- The hypotheses of `dips_fail` are met. -/
example : xRises flat 0 0 0 = [] ∨ yRises flat 0 0 0 = [] := by
  by_contra h
  rw [not_or] at h
  have e := dips_partial (I := flat) ⟨rfl, rfl⟩ rfl (i := 0) (j := 0) (k := 0) (by decide) (by decide) (by decide) (by decide +kernel) (by decide +kernel) h.1 h.2
  rw [show cellDips flat ((0 : Nat) : Int) ((0 : Nat) : Int) ((0 : Nat) : Int) = .error .nonFinite from flat_fails.2] at e
  cases e

example : make { coord := some flat.coord, zcorn := some flat.zcorn, dimens := some (1, 1, 1) } = .ok { flat with specgrid := false } := rfl

end Opm.GridInspector.Props
