import Verif.Proofs.Trans
import Verif.Props.CartGrid
import Mathlib.Algebra.Order.Field.Basic
/-!
# Property theorems for two-point transmissibilities (C36)
-/

namespace Opm.Trans
open Opm Graph

/-- **C36.**  `tpfa_trans_compute`: on a valid mesh each of whose faces has a cell, with positive half-transmissibilities, every face gets
the harmonic combination of the half-transmissibilities of its sides (the half-transmissibility itself on the boundary), and it is positive.
The previous contents of `trans` do not matter. -/
theorem trans_is_harmonic (g : GridTopo) (htrans trans : List Rat) (hv : g.Valid) (h0 : g.cellFacepos[0]? = some 0)
    (hside : ∀ f, f < g.nf → ¬ g.Sides f (-1) (-1)) (hlen : g.cellFacepos.getD g.nc 0 ≤ htrans.length) (hpos : ∀ h ∈ htrans, 0 < h)
    (ht : g.nf ≤ trans.length) :
    ∃ t, transCompute g htrans trans = .ok t ∧ t.length = trans.length ∧
      ∀ f, f < g.nf → ∃ v, t[f]? = some v ∧ 0 < v ∧ g.IsTrans (fun _ i => htrans.getD i 0) f v := by
  have hget : ∀ c i, c < g.nc → i < g.cellFacepos.getD (c + 1) 0 → htrans[i]? = some (htrans.getD i 0) := by
    intro c i hc hi
    exact getElem?_getD (by have := (hv.rowPos h0).lt_total hc hi; omega)
  have hw : ∀ c i, c < g.nc → g.cellFacepos.getD c 0 ≤ i → i < g.cellFacepos.getD (c + 1) 0 → 0 < htrans.getD i 0 := by
    intro c i hc _ hi
    exact hpos _ (List.mem_of_getElem? (hget c i hc hi))
  exact accumulate_ok hv h0 (w := fun _ i => htrans.getD i 0) (y := fun _ i => do
      let h ← rd htrans i
      fdiv 1 h) hw
    (fun c i hc h1 h2 => by rw [rd_of_getElem? (hget c i hc h2), bind_ok, fdiv_ok (hw c i hc h1 h2).ne']) hside ht
    (fun c i t f hf => by
      rw [rd_of_getElem? hf, bind_ok]
      cases rd htrans i <;> rfl)

/-- **C36.**  `tpfa_eff_trans_compute` does the same with the half-transmissibilities multiplied by the total mobility of their cell. -/
theorem eff_trans_is_harmonic (g : GridTopo) (totmob htrans trans : List Rat) (hv : g.Valid) (h0 : g.cellFacepos[0]? = some 0)
    (hside : ∀ f, f < g.nf → ¬ g.Sides f (-1) (-1)) (hlen : g.cellFacepos.getD g.nc 0 ≤ htrans.length) (hpos : ∀ h ∈ htrans, 0 < h)
    (hmlen : g.nc ≤ totmob.length) (hmpos : ∀ m ∈ totmob, 0 < m) (ht : g.nf ≤ trans.length) :
    ∃ t, effTransCompute g totmob htrans trans = .ok t ∧ t.length = trans.length ∧
      ∀ f, f < g.nf → ∃ v, t[f]? = some v ∧ 0 < v ∧ g.IsTrans (fun c i => totmob.getD c 0 * htrans.getD i 0) f v := by
  have hget : ∀ c i, c < g.nc → i < g.cellFacepos.getD (c + 1) 0 → htrans[i]? = some (htrans.getD i 0) := by
    intro c i hc hi
    exact getElem?_getD (by have := (hv.rowPos h0).lt_total hc hi; omega)
  have hgetm : ∀ c, c < g.nc → totmob[c]? = some (totmob.getD c 0) := fun c hc => getElem?_getD (by omega)
  have hw : ∀ c i, c < g.nc → g.cellFacepos.getD c 0 ≤ i → i < g.cellFacepos.getD (c + 1) 0 → 0 < totmob.getD c 0 * htrans.getD i 0 := by
    intro c i hc _ hi
    exact mul_pos (hmpos _ (List.mem_of_getElem? (hgetm c hc))) (hpos _ (List.mem_of_getElem? (hget c i hc hi)))
  exact accumulate_ok hv h0 (w := fun c i => totmob.getD c 0 * htrans.getD i 0) (y := fun c i => do
      let m ← rd totmob c
      let h ← rd htrans i
      fdiv 1 (m * h)) hw
    (fun c i hc h1 h2 => by rw [rd_of_getElem? (hgetm c hc), bind_ok, rd_of_getElem? (hget c i hc h2), bind_ok, fdiv_ok (hw c i hc h1 h2).ne']) hside ht
    (fun c i t f hf => by
      rw [rd_of_getElem? hf, bind_ok]
      cases rd totmob c with
      | error e => rfl
      | ok m =>
        rw [bind_ok]
        cases rd htrans i <;> rfl)

/-- **C36, limit.**  A face without cells makes the result infinite. -/
theorem trans_of_orphan_face_is_not_finite : transCompute ⟨1, 1, [-1, -1], [0, 0], []⟩ [] [0] = .error .nonFinite := by decide +kernel

/-- The data needed by `tpfa_htrans_compute`. -/
structure HtransData (g : GridTopo) (G : Geo) (perm : List Rat) : Prop where
  dim : G.d ≤ 3
  perm : g.nc * (G.d * G.d) ≤ perm.length
  normals : g.nf * G.d ≤ G.faceNormals.length
  fcent : g.nf * G.d ≤ G.faceCentroids.length
  ccent : g.nc * G.d ≤ G.cellCentroids.length

/-- Component `j` of the vector from the centroid of cell `c` to the centroid of face `f`. -/
def Geo.dist (G : Geo) (c f j : Nat) : Rat := G.faceCentroids.getD (f * G.d + j) 0 - G.cellCentroids.getD (c * G.d + j) 0

/-- Component `j` of `K n` for the tensor `K` of cell `c` (stored by columns) and the normal `n` of face `f`. -/
def Geo.Kn (G : Geo) (perm : List Rat) (c f j : Nat) : Rat :=
  dotN G.d (fun k => perm.getD (c * (G.d * G.d) + (j + k * G.d)) 0) (fun k => G.faceNormals.getD (f * G.d + k) 0)

theorem block_lt {n d c j m : Nat} (h : n * d ≤ m) (hc : c < n) (hj : j < d) : c * d + j < m := by
  have : (c + 1) * d ≤ n * d := Nat.mul_le_mul_right _ hc
  rw [Nat.succ_mul] at this
  omega

/-- **C36.**  `tpfa_htrans_compute`: where cell `c` lists face `f`, the half-transmissibility is `|dist · K n| / |dist|²`, with `dist` the vector
between the centroids. -/
theorem htrans_formula (g : GridTopo) (G : Geo) (perm htrans : List Rat) (hv : g.Valid) (h0 : g.cellFacepos[0]? = some 0)
    (hd : HtransData g G perm) (hlen : g.cellFacepos.getD g.nc 0 ≤ htrans.length)
    (hdist : ∀ c f i, g.HalfFace c f i → 0 < dotN G.d (G.dist c f) (G.dist c f)) :
    ∃ h, htransCompute g G perm htrans = .ok h ∧ h.length = htrans.length ∧
      ∀ c f i, g.HalfFace c f i → h[i]? = some (|dotN G.d (G.dist c f) (G.Kn perm c f)| / dotN G.d (G.dist c f) (G.dist c f)) := by
  have hp := hv.rowPos h0
  suffices H : ∃ h, htransCompute g G perm htrans = .ok h ∧ (fun c i (h : List Rat) => h.length = htrans.length ∧ g.cellFacepos.getD c 0 ≤ i ∧ ∀ c' f i', i' < i → g.HalfFace c' f i' →
      h[i']? = some (|dotN G.d (G.dist c' f) (G.Kn perm c' f)| / dotN G.d (G.dist c' f) (G.dist c' f))) g.nc (g.cellFacepos.getD g.nc 0) h by
    obtain ⟨h, e, h1, _, h2⟩ := H
    refine ⟨h, e, h1, fun c f i hh => h2 c f i ?_ hh⟩
    obtain ⟨hc, _, g2, _⟩ := (halfFace_iff hv).1 hh
    exact hp.lt_total hc g2
  unfold htransCompute
  refine rowLoop_inv hp
    (fun c i (h : List Rat) => h.length = htrans.length ∧ g.cellFacepos.getD c 0 ≤ i ∧ ∀ c' f i', i' < i → g.HalfFace c' f i' →
      h[i']? = some (|dotN G.d (G.dist c' f) (G.Kn perm c' f)| / dotN G.d (G.dist c' f) (G.dist c' f)))
    ⟨rfl, by rw [hp.get_zero], by omega⟩
    (by
      rintro c i t hc hi1 hi2 ⟨hl, _, hdone⟩
      obtain ⟨f, hf, hlt⟩ := hv.face_at hc hi2
      have hhf : g.HalfFace c f i := (halfFace_iff hv).2 ⟨hc, hi1, hi2, hf⟩
      obtain ⟨a, b, hs⟩ := hv.sides hlt
      have hit : i < t.length := by have := hp.lt_total hc hi2; omega
      have hkn : ∀ j, j < G.d → gemvRow G.d perm (c * G.d * G.d) G.faceNormals (f * G.d) j = .ok (G.Kn perm c f j) := by
        intro j hj
        unfold gemvRow
        rw [sum_loop (fun k => perm.getD (c * (G.d * G.d) + (j + k * G.d)) 0 * G.faceNormals.getD (f * G.d + k) 0)]
        · rfl
        · intro k a hk
          have hjk : j + k * G.d < G.d * G.d := by
            have : (k + 1) * G.d ≤ G.d * G.d := Nat.mul_le_mul_right _ hk
            rw [Nat.succ_mul] at this
            omega
          rw [Nat.mul_assoc, rd_of_getElem? (getElem?_getD (block_lt hd.perm hc hjk)), bind_ok,
            rd_of_getElem? (getElem?_getD (block_lt hd.normals hlt hk)), bind_ok]
      have hloop : loop G.d (fun j (r : Rat × Rat) => do
          check (decide (j < 3))
          let kn ← gemvRow G.d perm (c * G.d * G.d) G.faceNormals (f * G.d) j
          let fc ← rd G.faceCentroids (f * G.d + j)
          let cc ← rd G.cellCentroids (c * G.d + j)
          .ok (r.1 + (if a = (c : Int) then 1 else -1) * (fc - cc) * kn, r.2 + (fc - cc) * (fc - cc))) (0, 0) =
          .ok ((if a = (c : Int) then 1 else -1) * dotN G.d (G.dist c f) (G.Kn perm c f), dotN G.d (G.dist c f) (G.dist c f)) := by
        obtain ⟨r, er, hr⟩ := loop_inv (n := G.d) (s := ((0 : Rat), (0 : Rat))) (f := fun j (r : Rat × Rat) => do
          check (decide (j < 3))
          let kn ← gemvRow G.d perm (c * G.d * G.d) G.faceNormals (f * G.d) j
          let fc ← rd G.faceCentroids (f * G.d + j)
          let cc ← rd G.cellCentroids (c * G.d + j)
          .ok (r.1 + (if a = (c : Int) then 1 else -1) * (fc - cc) * kn, r.2 + (fc - cc) * (fc - cc)))
          (fun k r => r = ((if a = (c : Int) then 1 else -1) * dotN k (G.dist c f) (G.Kn perm c f), dotN k (G.dist c f) (G.dist c f)))
          (by simp [dotN])
          (by
            rintro j r hj rfl
            have := hd.dim
            refine ⟨_, ?_, rfl⟩
            rw [check_ok (by simp; omega), bind_ok, hkn j hj, bind_ok, rd_of_getElem? (getElem?_getD (block_lt hd.fcent hlt hj)), bind_ok,
              rd_of_getElem? (getElem?_getD (block_lt hd.ccent hc hj)), bind_ok]
            unfold dotN
            rw [Finset.sum_range_succ, Finset.sum_range_succ]
            simp only [Geo.dist]
            congr 2
            ring)
        rw [er, hr]
      have hpos := hdist c f i hhf
      have habs : (if (if a = (c : Int) then 1 else -1) * dotN G.d (G.dist c f) (G.Kn perm c f) / dotN G.d (G.dist c f) (G.dist c f) < 0 then
          -((if a = (c : Int) then 1 else -1) * dotN G.d (G.dist c f) (G.Kn perm c f) / dotN G.d (G.dist c f) (G.dist c f)) else
          (if a = (c : Int) then 1 else -1) * dotN G.d (G.dist c f) (G.Kn perm c f) / dotN G.d (G.dist c f) (G.dist c f)) =
          |dotN G.d (G.dist c f) (G.Kn perm c f)| / dotN G.d (G.dist c f) (G.dist c f) := by
        have key : ∀ q : Rat, (if q < 0 then -q else q) = |q| := by
          intro q
          split
          · rw [abs_of_neg (by assumption)]
          · rw [abs_of_nonneg (by linarith)]
        rw [key, abs_div, abs_mul, abs_of_pos hpos]
        split <;> simp
      refine ⟨t.set i (|dotN G.d (G.dist c f) (G.Kn perm c f)| / dotN G.d (G.dist c f) (G.dist c f)), ?_, by simpa using hl, by omega, ?_⟩
      · rw [rd_of_getElem? hf, bind_ok, rd_of_getElem? hs.1, bind_ok]
        simp only []
        rw [hloop, bind_ok, check_ok (by simpa using hpos), bind_ok, fdiv_ok hpos.ne', bind_ok, habs, wr_ok hit]
      · intro c' f' i' hi' hh
        by_cases hii : i' = i
        · subst hii
          obtain ⟨hc', g1, g2, g3⟩ := (halfFace_iff hv).1 hh
          obtain rfl := hp.row_unique hc hc' hi1 hi2 g1 g2
          rw [hf] at g3
          cases g3
          rw [List.getElem?_set_self hit]
        · rw [List.getElem?_set_ne (Ne.symm hii)]
          exact hdone c' f' i' (by omega) hh)
    (by
      rintro c t hc ⟨hl, _, hdone⟩
      exact ⟨hl, le_refl _, hdone⟩)

/-! ### Concrete cases -/

/-- Two cells in a row: faces 0, 1, 2; face 1 between the cells. -/
def twoCells : GridTopo := ⟨2, 3, [-1, 0, 0, 1, 1, -1], [0, 2, 4], [0, 1, 1, 2]⟩

example : transCompute twoCells [1, 2, 3, 6] [7, 7, 7] = .ok [1, 6 / 5, 6] := by decide +kernel
example : effTransCompute twoCells [2, 1] [1, 2, 3, 6] [7, 7, 7] = .ok [2, 12 / 7, 6] := by decide +kernel
example : harmonic 2 3 = 6 / 5 := by decide +kernel
example : htransCompute twoCells ⟨1, [1, 5], [1, 1, 1], [0, 2, 8]⟩ [3, 9] [0, 0, 0, 0] = .ok [3, 3, 3, 3] := by decide +kernel

end Opm.Trans
