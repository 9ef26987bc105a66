import Verif.Props.Trans
/-!
# Two-point transmissibilities of Cartesian grids (C36)

Joins the models of `cart_grid.c` and `trans_tpfa.c`: the transmissibilities computed on a grid of equal boxes with a diagonal permeability tensor
are the textbook ones.
-/

namespace Opm.Trans
open Opm Graph Opm.Cart

theorem slice_get {α : Type _} {l r : List α} {a b j : Nat} (h : slice l a b = .ok r) (hj : j < b - a) : l[a + j]? = r[j]? := by
  unfold slice at h
  split at h
  · cases h
    rw [List.getElem?_drop, List.getElem?_take, if_pos (by omega)]
  · cases h

theorem slice_getD {l r : List Rat} {d c j : Nat} (h : slice l (d * c) (d * c + d) = .ok r) (hj : j < d) : l.getD (c * d + j) 0 = r.getD j 0 := by
  rw [List.getD_eq_getElem?_getD, List.getD_eq_getElem?_getD, Nat.mul_comm c d, slice_get h (by omega)]

/-- The geometry of the grid as used by the transmissibility routine. -/
def geoOf (G : Grid) : Geo := ⟨G.ndims, G.cellCentroids, G.faceNormals, G.faceCentroids⟩

/-- Half-transmissibility from the geometry of a cell and a face, diagonal tensor. -/
theorem half_box {G : Grid} (hd : G.ndims = 3) {c f : Nat} {cc nrm fc : List Rat} {v a : Rat} {perm : List Rat} {kx ky kz : Rat}
    (hc : G.CellGeo 3 c cc v) (hf : G.FaceGeo 3 f nrm fc a) (hk : slice perm (9 * c) (9 * c + 9) = .ok [kx, 0, 0, 0, ky, 0, 0, 0, kz]) :
    dotN 3 ((geoOf G).dist c f) ((geoOf G).Kn perm c f) =
      (fc.getD 0 0 - cc.getD 0 0) * (kx * nrm.getD 0 0) + (fc.getD 1 0 - cc.getD 1 0) * (ky * nrm.getD 1 0) + (fc.getD 2 0 - cc.getD 2 0) * (kz * nrm.getD 2 0) ∧
    dotN 3 ((geoOf G).dist c f) ((geoOf G).dist c f) =
      (fc.getD 0 0 - cc.getD 0 0) ^ 2 + (fc.getD 1 0 - cc.getD 1 0) ^ 2 + (fc.getD 2 0 - cc.getD 2 0) ^ 2 := by
  have hdist : ∀ j, j < 3 → (geoOf G).dist c f j = fc.getD j 0 - cc.getD j 0 := by
    intro j hj
    unfold Geo.dist geoOf
    simp only [hd]
    rw [slice_getD hf.2.1 hj, slice_getD hc.1 hj]
  have hkn : (geoOf G).Kn perm c f 0 = kx * nrm.getD 0 0 ∧ (geoOf G).Kn perm c f 1 = ky * nrm.getD 1 0 ∧ (geoOf G).Kn perm c f 2 = kz * nrm.getD 2 0 := by
    unfold Geo.Kn geoOf dotN
    simp only [hd, Finset.sum_range_succ, Finset.sum_range_zero, zero_add]
    have h9 : ∀ j, j < 9 → perm.getD (c * (3 * 3) + j) 0 = [kx, 0, 0, 0, ky, 0, 0, 0, kz].getD j 0 := fun j hj => slice_getD (d := 9) hk hj
    have hn : ∀ j, j < 3 → G.faceNormals.getD (f * 3 + j) 0 = nrm.getD j 0 := fun j hj => slice_getD hf.1 hj
    rw [hn 0 (by omega), hn 1 (by omega), hn 2 (by omega), h9 (0 + 0 * 3) (by omega), h9 (0 + 1 * 3) (by omega), h9 (0 + 2 * 3) (by omega),
      h9 (1 + 0 * 3) (by omega), h9 (1 + 1 * 3) (by omega), h9 (1 + 2 * 3) (by omega),
      h9 (2 + 0 * 3) (by omega), h9 (2 + 1 * 3) (by omega), h9 (2 + 2 * 3) (by omega)]
    simp
  unfold dotN
  simp only [Finset.sum_range_succ, Finset.sum_range_zero, zero_add]
  rw [hdist 0 (by omega), hdist 1 (by omega), hdist 2 (by omega), hkn.1, hkn.2.1, hkn.2.2]
  exact ⟨rfl, by ring⟩

/-- The half-transmissibilities of a box, in the order of its faces (x, y, z). -/
def boxHalf (dx dy dz kx ky kz : Rat) : List Rat :=
  [kx * (dy * dz) / (dx / 2), kx * (dy * dz) / (dx / 2), ky * (dx * dz) / (dy / 2), ky * (dx * dz) / (dy / 2), kz * (dx * dy) / (dz / 2), kz * (dx * dy) / (dz / 2)]

theorem halfFace_of_cellIs {G : Grid} {c m f : Nat} {faces tags : List Nat} (h : G.CellIs 6 c faces tags) (hm : m < 6) (hf : faces[m]? = some f) :
    G.topo.HalfFace c f (6 * c + m) := by
  obtain ⟨h1, h2, h3, _⟩ := h
  exact ⟨_, _, h1, h2, by omega, by omega, by rw [← hf]; exact slice_get h3 (by omega)⟩

theorem len_lin (d : Rat) (i : Nat) : len (fun i => (i : Rat) * d) i = d := by unfold len; push_cast; ring
theorem sub_mid_lin (d : Rat) (i : Nat) : (i : Rat) * d - mid (fun i => (i : Rat) * d) i = -(d / 2) := by unfold mid; push_cast; ring
theorem succ_sub_mid_lin (d : Rat) (i : Nat) : ((i + 1 : Nat) : Rat) * d - mid (fun i => (i : Rat) * d) i = d / 2 := by unfold mid; push_cast; ring

theorem half_value {n D dist2 e k : Rat} (hk : 0 ≤ k) (hn : 0 ≤ n) (he : 0 < e) (h1 : D = e * (k * n) ∨ D = -e * (k * n)) (h2 : dist2 = e ^ 2) :
    |D| / dist2 = k * n / e ∧ 0 < dist2 := by
  have hkn : 0 ≤ e * (k * n) := mul_nonneg he.le (mul_nonneg hk hn)
  have : |D| = e * (k * n) := by
    rcases h1 with rfl | rfl
    · exact abs_of_nonneg hkn
    · rw [show -e * (k * n) = -(e * (k * n)) by ring, abs_neg, abs_of_nonneg hkn]
  rw [this, h2]
  refine ⟨?_, by positivity⟩
  field_simp

theorem getElem?_six {a b c d e f : Nat} {m : Nat} (hm : m < 6) : [a, b, c, d, e, f][m]? = some ([a, b, c, d, e, f].getD m 0) := by
  match m, hm with
  | 0, _ => rfl
  | 1, _ => rfl
  | 2, _ => rfl
  | 3, _ => rfl
  | 4, _ => rfl
  | 5, _ => rfl

/-- On a grid of equal boxes with a nonnegative diagonal permeability the half-transmissibility of a cell through a face is
`k · area / (half the width of the cell)`. -/
theorem cartesian_htrans_aux {perm : List Rat} {nx ny nz : Nat} {dx dy dz : Rat} {G : Grid} (hx : 0 < dx) (hy : 0 < dy) (hz : 0 < dz) (hc : IsCart3d nx ny nz G) (hv : G.topo.Valid)
    (hb : IsBoxes3d nx ny nz (fun i => (i : Rat) * dx) (fun i => (i : Rat) * dy) (fun i => (i : Rat) * dz) G) (hpos0 : G.cellFacepos[0]? = some 0)
    (hdata : HtransData G.topo (geoOf G) perm) (kx ky kz : Nat → Rat) (hk : ∀ c, c < G.nc → 0 ≤ kx c ∧ 0 ≤ ky c ∧ 0 ≤ kz c)
    (hperm : ∀ c, c < G.nc → slice perm (9 * c) (9 * c + 9) = .ok [kx c, 0, 0, 0, ky c, 0, 0, 0, kz c])
    (htrans : List Rat) (hlen : 6 * G.nc ≤ htrans.length) (hlast : G.cellFacepos[G.nc]? = some (6 * G.nc)) :
    ∃ h, htransCompute G.topo (geoOf G) perm htrans = .ok h ∧ h.length = htrans.length ∧ ∀ c, c < G.nc → slice h (6 * c) (6 * c + 6) = .ok (boxHalf dx dy dz (kx c) (ky c) (kz c)) := by
  -- all half faces
  have key : ∀ i j k, i < nx → j < ny → k < nz → ∀ m, m < 6 → ∃ f, G.topo.HalfFace (cell3 nx ny i j k) f (6 * cell3 nx ny i j k + m) ∧
      0 < dotN 3 ((geoOf G).dist (cell3 nx ny i j k) f) ((geoOf G).dist (cell3 nx ny i j k) f) ∧
      |dotN 3 ((geoOf G).dist (cell3 nx ny i j k) f) ((geoOf G).Kn perm (cell3 nx ny i j k) f)| /
        dotN 3 ((geoOf G).dist (cell3 nx ny i j k) f) ((geoOf G).dist (cell3 nx ny i j k) f) =
      (boxHalf dx dy dz (kx (cell3 nx ny i j k)) (ky (cell3 nx ny i j k)) (kz (cell3 nx ny i j k))).getD m 0 := by
    intro i j k hi hj hk' m hm
    have hlt : cell3 nx ny i j k < G.nc := by rw [hc.nc]; exact idx3_lt hi hj hk'
    obtain ⟨k1, k2, k3⟩ := hk _ hlt
    have hci := hc.cell i j k hi hj hk'
    have hcg := hb.cell i j k hi hj hk'
    refine ⟨_, halfFace_of_cellIs hci hm (getElem?_six hm), ?_⟩
    rw [and_comm]
    have hyz : 0 ≤ dy * dz := by positivity
    have hxz : 0 ≤ dx * dz := by positivity
    have hxy : 0 ≤ dx * dy := by positivity
    match m, hm with
    | 0, _ =>
      obtain ⟨e1, e2⟩ := half_box hc.ndims hcg (hb.xface i j k (by omega) hj hk') (hperm _ hlt)
      simp only [List.getD_cons_zero, List.getD_cons_succ, sub_mid_lin, len_lin, sub_self] at e1 e2
      refine half_value k1 hyz (by positivity) (Or.inr ?_) ?_
      · refine e1.trans ?_; ring
      · refine e2.trans ?_; ring
    | 1, _ =>
      obtain ⟨e1, e2⟩ := half_box hc.ndims hcg (hb.xface (i + 1) j k (by omega) hj hk') (hperm _ hlt)
      simp only [List.getD_cons_zero, List.getD_cons_succ, succ_sub_mid_lin, len_lin, sub_self] at e1 e2
      refine half_value k1 hyz (by positivity) (Or.inl ?_) ?_
      · refine e1.trans ?_; ring
      · refine e2.trans ?_; ring
    | 2, _ =>
      obtain ⟨e1, e2⟩ := half_box hc.ndims hcg (hb.yface i j k hi (by omega) hk') (hperm _ hlt)
      simp only [List.getD_cons_zero, List.getD_cons_succ, sub_mid_lin, len_lin, sub_self] at e1 e2
      refine half_value k2 hxz (by positivity) (Or.inr ?_) ?_
      · refine e1.trans ?_; ring
      · refine e2.trans ?_; ring
    | 3, _ =>
      obtain ⟨e1, e2⟩ := half_box hc.ndims hcg (hb.yface i (j + 1) k hi (by omega) hk') (hperm _ hlt)
      simp only [List.getD_cons_zero, List.getD_cons_succ, succ_sub_mid_lin, len_lin, sub_self] at e1 e2
      refine half_value k2 hxz (by positivity) (Or.inl ?_) ?_
      · refine e1.trans ?_; ring
      · refine e2.trans ?_; ring
    | 4, _ =>
      obtain ⟨e1, e2⟩ := half_box hc.ndims hcg (hb.zface i j k hi hj (by omega)) (hperm _ hlt)
      simp only [List.getD_cons_zero, List.getD_cons_succ, sub_mid_lin, len_lin, sub_self] at e1 e2
      refine half_value k3 hxy (by positivity) (Or.inr ?_) ?_
      · refine e1.trans ?_; ring
      · refine e2.trans ?_; ring
    | 5, _ =>
      obtain ⟨e1, e2⟩ := half_box hc.ndims hcg (hb.zface i j (k + 1) hi hj (by omega)) (hperm _ hlt)
      simp only [List.getD_cons_zero, List.getD_cons_succ, succ_sub_mid_lin, len_lin, sub_self] at e1 e2
      refine half_value k3 hxy (by positivity) (Or.inl ?_) ?_
      · refine e1.trans ?_; ring
      · refine e2.trans ?_; ring
  have hlast' : G.topo.cellFacepos.getD G.topo.nc 0 = 6 * G.nc := by
    show G.cellFacepos.getD G.nc 0 = _
    simp [List.getD_eq_getElem?_getD, hlast]
  obtain ⟨h, e, hl, hh⟩ := htrans_formula G.topo (geoOf G) perm htrans hv hpos0 hdata (by rw [hlast']; exact hlen)
    (by
      intro c f p hhf
      have hcl : c < G.nc := half_lt hv hhf
      have hcl' := hcl
      rw [hc.nc] at hcl'
      obtain ⟨i, j, k, hi, hj, hk', rfl⟩ := idx3_surj hcl'
      obtain ⟨a, b, ha, hb', h1, h2, h3⟩ := hhf
      obtain ⟨q1, q2, _⟩ := hc.cell i j k hi hj hk'
      unfold cell3 at q1 q2
      have ha2 : some a = some (6 * (i + nx * (j + ny * k))) := ha.symm.trans q1
      have hb2 : some b = some (6 * (i + nx * (j + ny * k)) + 6) := hb'.symm.trans q2
      cases ha2; cases hb2
      obtain ⟨f', ⟨_, _, _, _, _, _, g3⟩, g4, _⟩ := key i j k hi hj hk' (p - 6 * (i + nx * (j + ny * k))) (by omega)
      unfold cell3 at g3 g4
      rw [show 6 * (i + nx * (j + ny * k)) + (p - 6 * (i + nx * (j + ny * k))) = p by omega, h3] at g3
      cases g3
      have hd3 : (geoOf G).d = 3 := hc.ndims
      rw [hd3]
      exact g4)
  refine ⟨h, e, hl, fun c hcl => ?_⟩
  have hcl' := hcl
  rw [hc.nc] at hcl'
  obtain ⟨i, j, k, hi, hj, hk', rfl⟩ := idx3_surj hcl'
  have hd3 : (geoOf G).d = 3 := hc.ndims
  have hget : ∀ m, m < 6 → h[6 * (i + nx * (j + ny * k)) + m]? = (boxHalf dx dy dz (kx (i + nx * (j + ny * k))) (ky (i + nx * (j + ny * k))) (kz (i + nx * (j + ny * k))))[m]? := by
    intro m hm
    obtain ⟨f, g1, _, g3⟩ := key i j k hi hj hk' m hm
    have := hh _ _ _ g1
    rw [hd3, g3] at this
    unfold cell3 at this
    rw [this]
    have hl6 : m < (boxHalf dx dy dz (kx (i + nx * (j + ny * k))) (ky (i + nx * (j + ny * k))) (kz (i + nx * (j + ny * k)))).length := hm
    rw [List.getD_eq_getElem?_getD, List.getElem?_eq_getElem hl6]
    rfl
  unfold slice
  rw [if_pos (by omega)]
  congr 1
  apply List.ext_getElem?
  intro m
  by_cases hm : m < 6
  · rw [List.getElem?_drop, List.getElem?_take, if_pos (by omega), hget m hm]
  · rw [List.getElem?_eq_none (by simp; omega), List.getElem?_eq_none (by simp [boxHalf]; omega)]

theorem slice_len {α : Type _} {l r : List α} {a b : Nat} (h : slice l a b = .ok r) : b ≤ l.length := by
  unfold slice at h
  split at h
  · omega
  · cases h

theorem zface3_last {nx ny nz : Nat} (h1 : 0 < nx) (h2 : 0 < ny) :
    zface3 nx ny nz (nx - 1) (ny - 1) nz + 1 = (nx + 1) * ny * nz + nx * (ny + 1) * nz + nx * ny * (nz + 1) := by
  obtain ⟨a, rfl⟩ : ∃ a, nx = a + 1 := ⟨nx - 1, by omega⟩
  obtain ⟨b, rfl⟩ : ∃ b, ny = b + 1 := ⟨ny - 1, by omega⟩
  unfold zface3
  simp only [Nat.add_sub_cancel]
  ring

theorem cell3_last {nx ny nz : Nat} (h1 : 0 < nx) (h2 : 0 < ny) (h3 : 0 < nz) : cell3 nx ny (nx - 1) (ny - 1) (nz - 1) + 1 = nx * ny * nz := by
  obtain ⟨a, rfl⟩ : ∃ a, nx = a + 1 := ⟨nx - 1, by omega⟩
  obtain ⟨b, rfl⟩ : ∃ b, ny = b + 1 := ⟨ny - 1, by omega⟩
  obtain ⟨c, rfl⟩ : ∃ c, nz = c + 1 := ⟨nz - 1, by omega⟩
  unfold cell3
  simp only [Nat.add_sub_cancel]
  ring

theorem harmonic_box {k1 k2 A e : Rat} (h1 : 0 < k1) (h2 : 0 < k2) (hA : 0 < A) (he : 0 < e) :
    harmonic (k1 * A / (e / 2)) (k2 * A / (e / 2)) = A / e * (2 * k1 * k2 / (k1 + k2)) := by
  unfold harmonic
  field_simp

/-- **C36.**  Grid construction, half-transmissibilities and transmissibilities together: on a grid of equal boxes with positive diagonal permeability,
the half-transmissibility of a cell is `k · area / (half its width)`, and the transmissibility between neighbours is
`area / width · (harmonic mean of the permeabilities in that direction)`. -/
theorem cartesian_trans (junk : Junk) (nx ny nz : Nat) (dx dy dz : Rat) (h1 : 0 < nx) (h2 : 0 < ny) (h3 : 0 < nz) (hx : 0 < dx) (hy : 0 < dy) (hz : 0 < dz)
    (perm : List Rat) (kx ky kz : Nat → Rat) (hk : ∀ c, c < nx * ny * nz → 0 < kx c ∧ 0 < ky c ∧ 0 < kz c)
    (hperm : ∀ c, c < nx * ny * nz → slice perm (9 * c) (9 * c + 9) = .ok [kx c, 0, 0, 0, ky c, 0, 0, 0, kz c])
    (htrans trans : List Rat) (hlen : htrans.length = 6 * (nx * ny * nz))
    (hlen2 : trans.length = (nx + 1) * ny * nz + nx * (ny + 1) * nz + nx * ny * (nz + 1)) :
    ∃ G h t, createHexa3d junk nx ny nz dx dy dz = .ok G ∧ htransCompute G.topo (geoOf G) perm htrans = .ok h ∧ transCompute G.topo h trans = .ok t ∧
      (∀ c, c < nx * ny * nz → slice h (6 * c) (6 * c + 6) = .ok (boxHalf dx dy dz (kx c) (ky c) (kz c))) ∧
      (∀ i j k c c', i + 1 < nx → j < ny → k < nz → c = cell3 nx ny i j k → c' = cell3 nx ny (i + 1) j k →
        t[xface3 nx ny (i + 1) j k]? = some (dy * dz / dx * (2 * kx c * kx c' / (kx c + kx c')))) ∧
      (∀ i j k c c', i < nx → j + 1 < ny → k < nz → c = cell3 nx ny i j k → c' = cell3 nx ny i (j + 1) k →
        t[yface3 nx ny nz i (j + 1) k]? = some (dx * dz / dy * (2 * ky c * ky c' / (ky c + ky c')))) ∧
      (∀ i j k c c', i < nx → j < ny → k + 1 < nz → c = cell3 nx ny i j k → c' = cell3 nx ny i j (k + 1) →
        t[zface3 nx ny nz i j (k + 1)]? = some (dx * dy / dz * (2 * kz c * kz c' / (kz c + kz c')))) := by
  obtain ⟨G, eG, hc, hv, hb, _, _⟩ := hexa3d_grid junk nx ny nz dx dy dz h1 h2 h3
  have hcl := cell3_last h1 h2 h3
  have hfl := zface3_last (nz := nz) h1 h2
  have hnc := hc.nc
  have hnf := hc.nf
  have hpos0 : G.cellFacepos[0]? = some 0 := by
    have := (hc.cell 0 0 0 h1 h2 h3).1
    simpa [cell3] using this
  have hlast : G.cellFacepos[G.nc]? = some (6 * G.nc) := by
    have := (hc.cell (nx - 1) (ny - 1) (nz - 1) (by omega) (by omega) (by omega)).2.1
    rw [hcl] at this
    rw [hnc, this]
    congr 1
    omega
  have hdata : HtransData G.topo (geoOf G) perm := by
    have hd3 : (geoOf G).d = 3 := hc.ndims
    obtain ⟨z1, z2, _⟩ := hb.zface (nx - 1) (ny - 1) nz (by omega) (by omega) (le_refl _)
    have c1 := (hb.cell (nx - 1) (ny - 1) (nz - 1) (by omega) (by omega) (by omega)).1
    have pp := slice_len (hperm (cell3 nx ny (nx - 1) (ny - 1) (nz - 1)) (by omega))
    have z1' := slice_len z1
    have z2' := slice_len z2
    have c1' := slice_len c1
    refine ⟨by omega, ?_, ?_, ?_, ?_⟩
    · rw [hd3]; show G.nc * 9 ≤ _; omega
    · rw [hd3]; show G.nf * 3 ≤ G.faceNormals.length; omega
    · rw [hd3]; show G.nf * 3 ≤ G.faceCentroids.length; omega
    · rw [hd3]; show G.nc * 3 ≤ G.cellCentroids.length; omega
  obtain ⟨h, eh, hlh, hh⟩ := cartesian_htrans_aux hx hy hz hc hv hb hpos0 hdata kx ky kz
    (fun c hc' => by obtain ⟨a, b, c⟩ := hk c (by omega); exact ⟨a.le, b.le, c.le⟩) (fun c hc' => hperm c (by omega)) htrans (by omega) hlast
  have hlast' : G.topo.cellFacepos.getD G.topo.nc 0 = 6 * G.nc := by
    show G.cellFacepos.getD G.nc 0 = _
    simp [List.getD_eq_getElem?_getD, hlast]
  have hpos : ∀ v ∈ h, 0 < v := by
    intro v hvm
    obtain ⟨p, hp⟩ := List.mem_iff_getElem?.1 hvm
    have hpl := (List.getElem?_eq_some_iff.1 hp).1
    have hcell : p / 6 < nx * ny * nz := by omega
    have := slice_get (hh (p / 6) (by omega)) (j := p % 6) (by omega)
    rw [show 6 * (p / 6) + p % 6 = p by omega, hp] at this
    obtain ⟨k1, k2, k3⟩ := hk (p / 6) hcell
    have hm : v ∈ boxHalf dx dy dz (kx (p / 6)) (ky (p / 6)) (kz (p / 6)) := List.mem_of_getElem? this.symm
    unfold boxHalf at hm
    simp only [List.mem_cons, List.not_mem_nil, or_false] at hm
    rcases hm with rfl | rfl | rfl | rfl | rfl | rfl <;> positivity
  have hside : ∀ f, f < G.topo.nf → ¬ G.topo.Sides f (-1) (-1) := by
    intro f hf hs
    have hf' : f < (nx + 1) * ny * nz + nx * (ny + 1) * nz + nx * ny * (nz + 1) := by rw [← hnf]; exact hf
    have h2' : ∀ p n (c : Nat → Nat), 0 < n → p ≤ n → ¬ (before p c = -1 ∧ after p n c = -1) := by
      rintro p n c hn hp ⟨e1, e2⟩
      unfold before at e1
      unfold after at e2
      split at e1
      · split at e2 <;> omega
      · omega
    rcases face_cases hf' with ⟨i, j, k, hi, hj, hk', rfl⟩ | ⟨i, j, k, hi, hj, hk', rfl⟩ | ⟨i, j, k, hi, hj, hk', rfl⟩
    · obtain ⟨e1, e2⟩ := (hc.xface i j k hi hj hk').2.2.2.unique hs
      exact h2' _ _ _ h1 hi ⟨e1, e2⟩
    · obtain ⟨e1, e2⟩ := (hc.yface i j k hi hj hk').2.2.2.unique hs
      exact h2' _ _ _ h2 hj ⟨e1, e2⟩
    · obtain ⟨e1, e2⟩ := (hc.zface i j k hi hj hk').2.2.2.unique hs
      exact h2' _ _ _ h3 hk' ⟨e1, e2⟩
  obtain ⟨t, et, _, ht⟩ := trans_is_harmonic G.topo h trans hv hpos0 hside (by rw [hlast']; omega) hpos (by show G.nf ≤ _; omega)
  have hgetD : ∀ c m, c < nx * ny * nz → m < 6 → h.getD (6 * c + m) 0 = (boxHalf dx dy dz (kx c) (ky c) (kz c)).getD m 0 := by
    intro c m hcm hm
    rw [List.getD_eq_getElem?_getD, List.getD_eq_getElem?_getD, slice_get (hh c (by omega)) (by omega)]
  refine ⟨G, h, t, eG, eh, et, fun c hcm => hh c (by omega), ?_, ?_, ?_⟩
  · rintro i j k c c' hi hj hk' rfl rfl
    have hlt : cell3 nx ny i j k < nx * ny * nz := idx3_lt (by omega) hj hk'
    have hlt' : cell3 nx ny (i + 1) j k < nx * ny * nz := idx3_lt hi hj hk'
    obtain ⟨v, ev, _, hT, _⟩ := ht (xface3 nx ny (i + 1) j k) (by show _ < G.nf; have := xface3_lt (nx := nx) (ny := ny) (nz := nz) (i := i + 1) (by omega) hj hk'; omega)
    have hs : G.topo.Sides (xface3 nx ny (i + 1) j k) (cell3 nx ny i j k : Nat) (cell3 nx ny (i + 1) j k : Nat) := by
      have := (hc.xface (i + 1) j k (by omega) hj hk').2.2.2
      unfold before after at this
      rwa [if_neg (by omega), if_neg (by omega), Nat.add_sub_cancel] at this
    have hf1 := halfFace_of_cellIs (m := 1) (hc.cell i j k (by omega) hj hk') (by omega) rfl
    have hf2 := halfFace_of_cellIs (m := 0) (hc.cell (i + 1) j k hi hj hk') (by omega) rfl
    rw [ev, hT _ _ _ _ hs hf1 hf2]
    show some (harmonic (h.getD _ 0) (h.getD _ 0)) = _
    rw [hgetD _ _ hlt (by omega), hgetD _ _ hlt' (by omega)]
    exact congrArg some (harmonic_box (hk _ hlt).1 (hk _ hlt').1 (mul_pos hy hz) hx)
  · rintro i j k c c' hi hj hk' rfl rfl
    have hlt : cell3 nx ny i j k < nx * ny * nz := idx3_lt hi (by omega) hk'
    have hlt' : cell3 nx ny i (j + 1) k < nx * ny * nz := idx3_lt hi hj hk'
    obtain ⟨v, ev, _, hT, _⟩ := ht (yface3 nx ny nz i (j + 1) k) (by show _ < G.nf; have := yface3_lt (nx := nx) (ny := ny) (nz := nz) (j := j + 1) hi (by omega) hk'; omega)
    have hs : G.topo.Sides (yface3 nx ny nz i (j + 1) k) (cell3 nx ny i j k : Nat) (cell3 nx ny i (j + 1) k : Nat) := by
      have := (hc.yface i (j + 1) k hi (by omega) hk').2.2.2
      unfold before after at this
      rwa [if_neg (by omega), if_neg (by omega), Nat.add_sub_cancel] at this
    have hf1 := halfFace_of_cellIs (m := 3) (hc.cell i j k hi (by omega) hk') (by omega) rfl
    have hf2 := halfFace_of_cellIs (m := 2) (hc.cell i (j + 1) k hi hj hk') (by omega) rfl
    rw [ev, hT _ _ _ _ hs hf1 hf2]
    show some (harmonic (h.getD _ 0) (h.getD _ 0)) = _
    rw [hgetD _ _ hlt (by omega), hgetD _ _ hlt' (by omega)]
    exact congrArg some (harmonic_box (hk _ hlt).2.1 (hk _ hlt').2.1 (mul_pos hx hz) hy)
  · rintro i j k c c' hi hj hk' rfl rfl
    have hlt : cell3 nx ny i j k < nx * ny * nz := idx3_lt hi hj (by omega)
    have hlt' : cell3 nx ny i j (k + 1) < nx * ny * nz := idx3_lt hi hj hk'
    obtain ⟨v, ev, _, hT, _⟩ := ht (zface3 nx ny nz i j (k + 1)) (by show _ < G.nf; have := zface3_lt (nx := nx) (ny := ny) (nz := nz) (k := k + 1) hi hj (by omega); omega)
    have hs : G.topo.Sides (zface3 nx ny nz i j (k + 1)) (cell3 nx ny i j k : Nat) (cell3 nx ny i j (k + 1) : Nat) := by
      have := (hc.zface i j (k + 1) hi hj (by omega)).2.2.2
      unfold before after at this
      rwa [if_neg (by omega), if_neg (by omega), Nat.add_sub_cancel] at this
    have hf1 := halfFace_of_cellIs (m := 5) (hc.cell i j k hi hj (by omega)) (by omega) rfl
    have hf2 := halfFace_of_cellIs (m := 4) (hc.cell i j (k + 1) hi hj hk') (by omega) rfl
    rw [ev, hT _ _ _ _ hs hf1 hf2]
    show some (harmonic (h.getD _ 0) (h.getD _ 0)) = _
    rw [hgetD _ _ hlt (by omega), hgetD _ _ hlt' (by omega)]
    exact congrArg some (harmonic_box (hk _ hlt).2.2 (hk _ hlt').2.2 (mul_pos hx hy) hz)

/-- The hypotheses hold for a 2 × 1 × 1 grid with different, anisotropic permeabilities in the two cells. -/
example : ∃ perm : List Rat, ∃ kx ky kz : Nat → Rat, (∀ c, c < 2 * 1 * 1 → 0 < kx c ∧ 0 < ky c ∧ 0 < kz c) ∧
    (∀ c, c < 2 * 1 * 1 → slice perm (9 * c) (9 * c + 9) = .ok [kx c, 0, 0, 0, ky c, 0, 0, 0, kz c]) ∧ kx 0 ≠ kx 1 := by
  refine ⟨[1, 0, 0, 0, 2, 0, 0, 0, 3, 4, 0, 0, 0, 5, 0, 0, 0, 6], fun c => if c = 0 then 1 else 4, fun c => if c = 0 then 2 else 5,
    fun c => if c = 0 then 3 else 6, by decide +kernel, ?_, by decide +kernel⟩
  intro c hc
  have : c = 0 ∨ c = 1 := by omega
  rcases this with rfl | rfl <;> rfl

end Opm.Trans
