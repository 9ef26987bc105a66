import Verif.Proofs.Mobility
import Verif.Props.CartTrans
import Verif.Props.CartGrid
/-!
# Cell velocities estimated from face fluxes

Properties of `estimateCellVelocity`.
-/

namespace Opm.MiscUtil
open Opm Opm.IfsTpfa

/-- **Velocity estimate.**  Component `d` of the velocity of cell `c` is the sum over its faces of outflow times the arm from cell to face centre, divided by the
volume. -/
theorem cell_velocity_eq {G : GridTopo} (hv : G.Valid) {g : VelGeo} (hg : g.Ok G) {flux : List Rat} (hf : G.nf ≤ flux.length) :
    ∃ v, estimateCellVelocity G g flux = .ok v ∧ v.length = G.nc * g.dim ∧ ∀ c d, c < G.nc → d < g.dim →
      v.getD (c * g.dim + d) 0 = ∑ f ∈ Finset.range G.nf, outward G c f * g.arm c f d * (flux.getD f 0 / g.vol.getD c 0) := by
  have hside : ∀ (f : Nat) (x : Int) (σ : Rat) (t : List Rat) (q : Rat), f < G.nf → (x = -1 ∨ (0 ≤ x ∧ x < G.nc)) → t.length = G.nc * g.dim →
      ∃ t', (if x ≥ 0 then loop g.dim (fun d v => do
          let y ← rd g.faceCent (f * g.dim + d)
          let z ← rd g.cellCent (x.toNat * g.dim + d)
          let vol ← rd g.vol x.toNat
          let r ← fdiv q vol
          let contrib := (y - z) * r
          addAt v (x.toNat * g.dim + d) (σ * contrib)) t else .ok t) = .ok t' ∧ t'.length = G.nc * g.dim ∧
        ∀ c d, c < G.nc → d < g.dim → t'.getD (c * g.dim + d) 0 = t.getD (c * g.dim + d) 0 + if x = (c : Int) then σ * (g.arm c f d * (q / g.vol.getD c 0)) else 0 := by
    intro f x σ t q hlt hx ht
    by_cases h0 : x ≥ 0
    · rw [if_pos h0]
      obtain ⟨c, rfl⟩ : ∃ c : Nat, x = c := ⟨x.toNat, by omega⟩
      have hc : c < G.nc := by omega
      rw [Int.toNat_natCast]
      obtain ⟨t', e, h1, h2⟩ := loop_addAt (n := g.dim) (s := t) (f := fun d v => do
          let y ← rd g.faceCent (f * g.dim + d)
          let z ← rd g.cellCent (c * g.dim + d)
          let vol ← rd g.vol c
          let r ← fdiv q vol
          let contrib := (y - z) * r
          addAt v (c * g.dim + d) (σ * contrib)) (fun d => c * g.dim + d) (fun d => σ * (g.arm c f d * (q / g.vol.getD c 0))) (by
            intro d v hd _
            rw [rdD (lt_of_lt_of_le (idx_lt' hlt hd) hg.face), bind_ok, rdD (lt_of_lt_of_le (idx_lt' hc hd) hg.cell), bind_ok,
              rdD (lt_of_lt_of_le hc hg.vol), bind_ok, fdiv_ok (hg.nonzero c hc), bind_ok]
            rfl) (fun d hd => by rw [ht]; exact idx_lt' hc hd)
      refine ⟨t', e, by omega, fun c' d hc' hd => ?_⟩
      rw [h2]
      congr 1
      by_cases hcc : c' = c
      · subst hcc
        rw [if_pos rfl, Finset.sum_congr rfl (fun i _ => (by simp : (if c' * g.dim + d = c' * g.dim + i then σ * (g.arm c' f i * (q / g.vol.getD c' 0)) else 0) =
          if d = i then σ * (g.arm c' f i * (q / g.vol.getD c' 0)) else 0)), sum_phase hd]
      · rw [if_neg (by omega)]
        refine Finset.sum_eq_zero fun i hi => if_neg fun h => hcc (idx_inj' hd (Finset.mem_range.1 hi) h).1
    · rw [if_neg h0]
      refine ⟨t, rfl, ht, fun c d hc _ => ?_⟩
      rw [if_neg (by omega), add_zero]
  obtain ⟨v, e, h1, h2⟩ := loop_inv (n := G.nf) (s := List.replicate (G.nc * g.dim) (0 : Rat)) (f := fun f v => do
      let c0 ← rd G.faceCells (2 * f)
      let c1 ← rd G.faceCells (2 * f + 1)
      let q ← rd flux f
      loop 2 (fun i v => do
        let c := if i = 0 then c0 else c1
        if c ≥ 0 then
          loop g.dim (fun d v => do
            let x ← rd g.faceCent (f * g.dim + d)
            let y ← rd g.cellCent (c.toNat * g.dim + d)
            let vol ← rd g.vol c.toNat
            let r ← fdiv q vol
            let contrib := (x - y) * r
            addAt v (c.toNat * g.dim + d) (if i = 0 then contrib else -contrib)) v
        else .ok v) v)
    (P := fun k (v : List Rat) => v.length = G.nc * g.dim ∧ ∀ c d, c < G.nc → d < g.dim →
      v.getD (c * g.dim + d) 0 = ∑ f ∈ Finset.range k, outward G c f * g.arm c f d * (flux.getD f 0 / g.vol.getD c 0))
    ⟨by simp, by
      intro c d hc hd
      have := idx_lt' hc hd
      simp [List.getD_eq_getElem?_getD, this]⟩ (by
      rintro f v hlt ⟨h1, h2⟩
      obtain ⟨a, b, hs⟩ := hv.sides hlt
      obtain ⟨ra, rb⟩ := hv.side_range hs
      obtain ⟨t, et, t1, t2⟩ := hside f a 1 v (flux.getD f 0) hlt ra h1
      obtain ⟨u, eu, u1, u2⟩ := hside f b (-1) t (flux.getD f 0) hlt rb t1
      refine ⟨u, ?_, u1, ?_⟩
      · rw [rd_of_getElem? hs.1, bind_ok, rd_of_getElem? hs.2, bind_ok, rdD (by omega), bind_ok]
        rw [loop_succ, loop_succ, loop_zero, bind_ok]
        simp only [if_true, if_neg (by decide : ¬ (1 : Nat) = 0)]
        simp only [one_mul] at et
        simp only [neg_mul, one_mul] at eu
        rw [et, bind_ok]
        exact eu
      · intro c d hc hd
        rw [u2 c d hc hd, t2 c d hc hd, h2 c d hc hd, Finset.sum_range_succ, add_assoc]
        congr 1
        unfold outward
        rw [hs.1, hs.2]
        simp only [Option.some.injEq]
        split <;> split <;> ring)
  exact ⟨v, e, h1, h2⟩

/-- **Uniform flow is reproduced exactly.**  If the face fluxes are those of a constant velocity `u`, the estimate is `u` in each cell whose faces enclose it. -/
theorem cell_velocity_uniform {G : GridTopo} (hv : G.Valid) {g : VelGeo} (hg : g.Ok G) {flux : List Rat} (hf : G.nf ≤ flux.length)
    (n : Nat → Nat → Rat) (u : Nat → Rat) (hu : ∀ f, f < G.nf → flux.getD f 0 = ∑ e ∈ Finset.range g.dim, u e * n f e) :
    ∃ v, estimateCellVelocity G g flux = .ok v ∧ ∀ c d, c < G.nc → d < g.dim → Encloses G g n c → v.getD (c * g.dim + d) 0 = u d := by
  obtain ⟨v, e, _, h⟩ := cell_velocity_eq hv hg hf
  refine ⟨v, e, fun c d hc hd hE => ?_⟩
  have h0 := hg.nonzero c hc
  rw [h c d hc hd]
  have : ∀ f ∈ Finset.range G.nf, outward G c f * g.arm c f d * (flux.getD f 0 / g.vol.getD c 0) =
      (∑ e ∈ Finset.range g.dim, u e * (outward G c f * g.arm c f d * n f e)) / g.vol.getD c 0 := by
    intro f hlt
    rw [hu f (Finset.mem_range.1 hlt), ← mul_div_assoc, Finset.mul_sum]
    congr 1
    exact Finset.sum_congr rfl fun e _ => by ring
  rw [Finset.sum_congr rfl this, ← Finset.sum_div, Finset.sum_comm, div_eq_iff h0]
  have h3 : ∀ e ∈ Finset.range g.dim, ∑ f ∈ Finset.range G.nf, u e * (outward G c f * g.arm c f d * n f e) = if d = e then u e * g.vol.getD c 0 else 0 := by
    intro e he
    rw [← Finset.mul_sum, hE d e hd (Finset.mem_range.1 he)]
    split <;> simp
  rw [Finset.sum_congr rfl h3, sum_phase hd]

/-- The geometry of a Cartesian grid as used here. -/
def velGeoOf (G : Cart.Grid) : VelGeo := ⟨G.ndims, G.faceCentroids, G.cellCentroids, G.cellVolumes⟩

theorem slice_le {l r : List Rat} {a b : Nat} (h : slice l a b = .ok r) : b ≤ l.length := by
  unfold slice at h
  split at h
  · rename_i h'; exact h'.2
  · cases h

theorem idx3_last {nx ny : Nat} (h1 : 0 < nx) (h2 : 0 < ny) (k : Nat) : (nx - 1) + nx * ((ny - 1) + ny * k) + 1 = nx * ny * (k + 1) := by
  obtain ⟨a, rfl⟩ : ∃ a, nx = a + 1 := ⟨nx - 1, by omega⟩
  obtain ⟨b, rfl⟩ : ∃ b, ny = b + 1 := ⟨ny - 1, by omega⟩
  simp only [Nat.add_sub_cancel]
  ring

open Cart in
/-- The faces of a box enclose it. -/
theorem box_encloses {nx ny nz : Nat} {X Y Z : Nat → Rat} {G : Grid} (hc : IsCart3d nx ny nz G) (hb : IsBoxes3d nx ny nz X Y Z G) (hv : G.topo.Valid)
    {c : Nat} (hlt : c < G.nc) : Encloses G.topo (velGeoOf G) (fun f e => G.faceNormals.getD (f * 3 + e) 0) c := by
  have hdim : (velGeoOf G).dim = 3 := hc.ndims
  intro d e hd he
  rw [hdim] at hd he
  obtain ⟨i, j, k, hi, hj, hk, rfl⟩ := idx3_surj (hc.nc ▸ hlt)
  set c := i + nx * (j + ny * k) with hcdef
  have hc3 : c = cell3 nx ny i j k := rfl
  have hrow := GridTopo.sum_row hv (c := c) hlt (fun f => outward G.topo c f * (velGeoOf G).arm c f d * G.faceNormals.getD (f * 3 + e) 0)
  rw [Finset.sum_filter] at hrow
  have hz : ∀ f ∈ Finset.range G.topo.nf, (if G.topo.faceCells[2 * f]? = some (c : Int) ∨ G.topo.faceCells[2 * f + 1]? = some (c : Int) then
      outward G.topo c f * (velGeoOf G).arm c f d * G.faceNormals.getD (f * 3 + e) 0 else 0) = outward G.topo c f * (velGeoOf G).arm c f d * G.faceNormals.getD (f * 3 + e) 0 := by
    intro f _
    split
    · rfl
    · rename_i h
      have : outward G.topo c f = 0 := by
        unfold outward
        rw [if_neg (fun h' => h (Or.inl h')), if_neg (fun h' => h (Or.inr h')), sub_self]
      rw [this]; ring
  rw [Finset.sum_congr rfl hz] at hrow
  rw [← hrow]
  have hci := hc.cell i j k hi hj hk
  have hcg := hb.cell i j k hi hj hk
  rw [← hc3] at hci hcg
  obtain ⟨p1, p2, p3, _⟩ := hci
  have q1 : G.topo.cellFacepos.getD c 0 = 6 * c := getD_of_getElem? p1
  have q2 : G.topo.cellFacepos.getD (c + 1) 0 = 6 * c + 6 := getD_of_getElem? p2
  rw [q1, q2, Finset.sum_Ico_eq_sum_range, show 6 * c + 6 - 6 * c = 6 by omega]
  have hface : ∀ m, m < 6 → G.topo.cellFaces.getD (6 * c + m) 0 = [xface3 nx ny i j k, xface3 nx ny (i + 1) j k, yface3 nx ny nz i j k,
      yface3 nx ny nz i (j + 1) k, zface3 nx ny nz i j k, zface3 nx ny nz i j (k + 1)].getD m 0 := by
    intro m hm
    rw [List.getD_eq_getElem?_getD, List.getD_eq_getElem?_getD, ← Trans.slice_get p3 (by omega)]
    rfl
  have hvol : (velGeoOf G).vol.getD c 0 = len X i * len Y j * len Z k := getD_of_getElem? hcg.2
  have harm : ∀ f nrm cent a, G.FaceGeo 3 f nrm cent a → (velGeoOf G).arm c f d = cent.getD d 0 - [mid X i, mid Y j, mid Z k].getD d 0 ∧
      G.faceNormals.getD (f * 3 + e) 0 = nrm.getD e 0 := by
    intro f nrm cent a hf
    refine ⟨?_, Trans.slice_getD hf.1 he⟩
    unfold VelGeo.arm
    rw [hdim]
    show G.faceCentroids.getD _ 0 - G.cellCentroids.getD _ 0 = _
    rw [Trans.slice_getD hf.2.1 hd, Trans.slice_getD hcg.1 hd]
  -- signs
  have hin : ∀ f a, G.topo.Sides f a (c : Int) → a ≠ (c : Int) → outward G.topo c f = -1 := by
    intro f a hs hne
    unfold outward
    rw [hs.1, hs.2, if_neg (by simpa using hne), if_pos rfl]; ring
  have hout : ∀ f b, G.topo.Sides f (c : Int) b → b ≠ (c : Int) → outward G.topo c f = 1 := by
    intro f b hs hne
    unfold outward
    rw [hs.1, hs.2, if_pos rfl, if_neg (by simpa using hne)]; ring
  have hdist := hv.distinct
  have sin : ∀ f a, G.topo.Sides f a (c : Int) → outward G.topo c f = -1 := fun f a hs => hin f a hs (fun h => hdist f a _ hs (by omega) h)
  have sout : ∀ f b, G.topo.Sides f (c : Int) b → outward G.topo c f = 1 := fun f b hs => hout f b hs (fun h => hdist f _ b hs (by omega) h.symm)
  have aft : ∀ (p n : Nat) (F : Nat → Nat), p < n → after p n F = (F p : Int) := fun p n F h => if_neg (by omega)
  have bef : ∀ (p : Nat) (F : Nat → Nat), before (p + 1) F = (F p : Int) := fun p F => by unfold before; rw [if_neg (by omega)]; rfl
  have fx0 := (hc.xface i j k (by omega) hj hk).2.2.2
  have fx1 := (hc.xface (i + 1) j k (by omega) hj hk).2.2.2
  have fy0 := (hc.yface i j k hi (by omega) hk).2.2.2
  have fy1 := (hc.yface i (j + 1) k hi (by omega) hk).2.2.2
  have fz0 := (hc.zface i j k hi hj (by omega)).2.2.2
  have fz1 := (hc.zface i j (k + 1) hi hj (by omega)).2.2.2
  rw [aft i nx _ hi, ← hc3] at fx0
  rw [bef, ← hc3] at fx1
  rw [aft j ny _ hj, ← hc3] at fy0
  rw [bef, ← hc3] at fy1
  rw [aft k nz _ hk, ← hc3] at fz0
  rw [bef, ← hc3] at fz1
  have gx0 := harm _ _ _ _ (hb.xface i j k (by omega) hj hk)
  have gx1 := harm _ _ _ _ (hb.xface (i + 1) j k (by omega) hj hk)
  have gy0 := harm _ _ _ _ (hb.yface i j k hi (by omega) hk)
  have gy1 := harm _ _ _ _ (hb.yface i (j + 1) k hi (by omega) hk)
  have gz0 := harm _ _ _ _ (hb.zface i j k hi hj (by omega))
  have gz1 := harm _ _ _ _ (hb.zface i j (k + 1) hi hj (by omega))
  simp only [Finset.sum_range_succ, Finset.sum_range_zero]
  rw [hface 0 (by omega), hface 1 (by omega), hface 2 (by omega), hface 3 (by omega), hface 4 (by omega), hface 5 (by omega)]
  simp only [List.getD_cons_zero, List.getD_cons_succ]
  rw [sin _ _ fx0, sout _ _ fx1, sin _ _ fy0, sout _ _ fy1, sin _ _ fz0, sout _ _ fz1, gx0.1, gx0.2, gx1.1, gx1.2, gy0.1, gy0.2, gy1.1, gy1.2, gz0.1, gz0.2,
    gz1.1, gz1.2, hvol]
  have hd' : d = 0 ∨ d = 1 ∨ d = 2 := by omega
  have he' : e = 0 ∨ e = 1 ∨ e = 2 := by omega
  rcases hd' with rfl | rfl | rfl <;> rcases he' with rfl | rfl | rfl <;> simp [len] <;> ring

open Cart in
/-- **Uniform flow on a Cartesian grid** with increasing grid lines: if the face fluxes are those of a constant velocity, the estimate is that velocity in each cell. -/
theorem cell_velocity_cartesian (junk : Junk) (nx ny nz : Nat) (x y z : List Rat) (X Y Z : Nat → Rat) (h1 : 0 < nx) (h2 : 0 < ny) (h3 : 0 < nz)
    (hx : Holds x nx X) (hy : Holds y ny Y) (hz : Holds z nz Z) (hX : ∀ i, X i < X (i + 1)) (hY : ∀ i, Y i < Y (i + 1)) (hZ : ∀ i, Z i < Z (i + 1)) :
    ∃ G, createTensor3d junk nx ny nz x y z = .ok G ∧ ∀ (flux : List Rat) (u : Nat → Rat), G.nf ≤ flux.length →
      (∀ f, f < G.nf → flux.getD f 0 = ∑ e ∈ Finset.range 3, u e * G.faceNormals.getD (f * 3 + e) 0) →
      ∃ v, estimateCellVelocity G.topo (velGeoOf G) flux = .ok v ∧ ∀ c d, c < G.nc → d < 3 → v.getD (c * 3 + d) 0 = u d := by
  obtain ⟨G, e, hc, hv, hb, _⟩ := tensor3d_grid junk nx ny nz x y z X Y Z h1 h2 h3 hx hy hz
  refine ⟨G, e, fun flux u hf hu => ?_⟩
  have hdim : (velGeoOf G).dim = 3 := hc.ndims
  have hnc : 0 < G.nc := by rw [hc.nc]; positivity
  have hok : (velGeoOf G).Ok G.topo := by
    refine ⟨?_, ?_, ?_, ?_⟩
    · rw [hdim]
      show G.nf * 3 ≤ G.faceCentroids.length
      have hz := (hb.zface (nx - 1) (ny - 1) nz (by omega) (by omega) (le_refl _)).2.1
      have hlen := slice_le hz
      have : zface3 nx ny nz (nx - 1) (ny - 1) nz + 1 = G.nf := by
        rw [hc.nf]
        unfold zface3
        have h := idx3_last h1 h2 nz
        omega
      omega
    · rw [hdim]
      show G.nc * 3 ≤ G.cellCentroids.length
      have hz := (hb.cell (nx - 1) (ny - 1) (nz - 1) (by omega) (by omega) (by omega)).1
      have hlen := slice_le hz
      have : cell3 nx ny (nx - 1) (ny - 1) (nz - 1) + 1 = G.nc := by
        rw [hc.nc]
        unfold cell3
        have h := idx3_last h1 h2 (nz - 1)
        rw [Nat.sub_add_cancel h3] at h
        exact h
      omega
    · show G.nc ≤ G.cellVolumes.length
      rw [hb.volumes, hc.nc]
    · intro c hlt
      obtain ⟨i, j, k, hi, hj, hk, rfl⟩ := idx3_surj (hc.nc ▸ hlt : c < nx * ny * nz)
      have := getD_of_getElem? (d := 0) (hb.cell i j k hi hj hk).2
      show G.cellVolumes.getD (cell3 nx ny i j k) 0 ≠ 0
      rw [this]
      exact ne_of_gt (mul_pos (mul_pos (len_pos hX i) (len_pos hY j)) (len_pos hZ k))
  obtain ⟨v, ev, h⟩ := cell_velocity_uniform hv hok (flux := flux) hf (fun f e => G.faceNormals.getD (f * 3 + e) 0) u (by rw [hdim]; exact hu)
  refine ⟨v, ev, fun c d hlt hd => ?_⟩
  have := h c d hlt (by rw [hdim]; exact hd) (box_encloses hc hb hv hlt)
  rwa [hdim] at this

namespace Demo

/-- Two unit squares side by side. -/
def twoCells : GridTopo := { nc := 2, nf := 7, faceCells := [-1, 0, 0, 1, 1, -1, -1, 0, 0, -1, -1, 1, 1, -1], cellFacepos := [0, 4, 8], cellFaces := [0, 1, 3, 4, 1, 2, 5, 6] }

/-- Their geometry. -/
def twoGeo : VelGeo := { dim := 2, faceCent := [0, 1/2, 1, 1/2, 2, 1/2, 1/2, 0, 1/2, 1, 3/2, 0, 3/2, 1], cellCent := [1/2, 1/2, 3/2, 1/2], vol := [1, 1] }

example : estimateCellVelocity twoCells twoGeo [3, 3, 3, 5, 5, 5, 5] = .ok [3, 5, 3, 5] := by decide +kernel

end Demo

end Opm.MiscUtil
