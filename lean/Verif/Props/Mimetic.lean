import Mathlib.Algebra.Order.Ring.Rat
import Verif.Proofs.MimeticCell
import Verif.Proofs.Hybsys
/-!
# Mimetic inner products: properties
-/

namespace Opm.Mimetic
open Opm.Hybsys (deg off2 face hf)

section
variable {K : Type} [Field K] [DecidableEq K]

/-- **Symmetry and consistency.**  The inner products of all cells are computed; with symmetric permeabilities they are symmetric, and for every pressure that is linear in the cell they give the exact fluxes
through the faces: if the pressure drops from the centre to the faces are those of the gradient `z`, the flux through half face `i` is `N_i · K z`. -/
theorem inner_products_consistent {qr : Nat → Nat → List K → List K} {nc nf d mx : Nat} {pconn conn : List Nat} {g : Geo K} (hm : MeshOk nc nf d mx pconn conn g)
    (hq : Orthonormalises qr nc d mx pconn conn g) (junk : Nat → K) {Binv : List K} (hB : off2 pconn nc ≤ Binv.length) :
    ∃ B, ipSimpleAll qr junk nc d mx pconn conn g Binv = .ok B ∧ B.length = Binv.length ∧
      (PermSym nc d g → ∀ c i j, c < nc → i < deg pconn c → j < deg pconn c → ipK pconn B c i j = ipK pconn B c j i) ∧
      (ClosedCells nc d pconn conn g → ∀ c i (z : Nat → K), c < nc → i < deg pconn c →
        ∑ j ∈ Finset.range (deg pconn c), ipK pconn B c i j * (∑ l ∈ Finset.range d, arm d pconn conn g c j l * z l) =
          ∑ l ∈ Finset.range d, normal d pconn conn g c i l * ∑ k ∈ Finset.range d, permOf d g c l k * z k) := by
  obtain ⟨B, e, l, h⟩ := ipSimpleAll_ok hm hq junk hB
  refine ⟨B, e, l, fun hs c i j hc hi hj => ?_, fun hcl c i z hc hi => ?_⟩
  · obtain ⟨Q, R, _, _, h3⟩ := h c hc
    rw [h3 i j hi hj, h3 j i hj hi]
    exact cellIp_symm (fun k l hk hl => hs c k l hc hk hl) i j
  · obtain ⟨Q, R, h1, h2, h3⟩ := h c hc
    rw [Finset.sum_congr rfl (fun j hj => by rw [h3 i j hi (Finset.mem_range.1 hj)])]
    exact cellIp_exact h1 h2 (fun k l hk hl => hcl c k l hc hk hl) (hm.vol c hc) z hi

/-- **Gravity.**  `gpress` is the component of gravity along the vector from the centre of the cell to that of the face. -/
theorem gravity_terms {nc nf d mx : Nat} {pconn conn : List Nat} {g : Geo K} (hm : MeshOk nc nf d mx pconn conn g) {grav gp : List K} (hg : d ≤ grav.length) (hl : pconn.getD nc 0 ≤ gp.length) :
    ∃ gp', computeGpress nc d grav pconn conn g.fcentroid g.ccentroid gp = .ok gp' ∧ gp'.length = gp.length ∧
      ∀ c i, c < nc → i < deg pconn c → gp'.getD (pconn.getD c 0 + i) 0 = ∑ j ∈ Finset.range d, grav.getD j 0 * arm d pconn conn g c i j := by
  unfold computeGpress
  obtain ⟨gp', e, h1, h2⟩ := rowLoop_inv hm.pos (s := gp) (f := fun c i a => do
    let f ← rd conn i
    let a ← wr a i 0
    loop d (fun j a => do
      let x ← rd a i
      let g' ← rd grav j
      let u ← rd g.fcentroid (f * d + j)
      let v ← rd g.ccentroid (c * d + j)
      wr a i (x + g' * (u - v))) a)
    (fun _ m a => a.length = gp.length ∧ ∀ c i, c < nc → i < deg pconn c → pconn.getD c 0 + i < m → a.getD (pconn.getD c 0 + i) 0 = ∑ j ∈ Finset.range d, grav.getD j 0 * arm d pconn conn g c i j)
    ⟨rfl, fun c i _ _ h => absurd h (Nat.not_lt_zero _)⟩ (by
    rintro c i a hc hi hi' ⟨h1, h2⟩
    have htot := hm.pos.lt_total hc hi'
    have hadd := Hybsys.pos_add hm.pos hc
    obtain ⟨g1, g2⟩ := conn_at hm hc (i := i - pconn.getD c 0) (by omega)
    rw [show pconn.getD c 0 + (i - pconn.getD c 0) = i by omega] at g1
    set f := face pconn conn c (i - pconn.getD c 0) with hf
    have hil : i < a.length := by omega
    rw [rd_of_getElem? g1, bind_ok, wr_ok hil, bind_ok]
    obtain ⟨b, e, b1, b2, b3⟩ := loop_inv (n := d) (s := a.set i 0) (f := fun j a => do
      let x ← rd a i
      let g' ← rd grav j
      let u ← rd g.fcentroid (f * d + j)
      let v ← rd g.ccentroid (c * d + j)
      wr a i (x + g' * (u - v))) (fun m b => b.length = gp.length ∧ (∀ k, k ≠ i → b.getD k 0 = a.getD k 0) ∧
        b.getD i 0 = ∑ j ∈ Finset.range m, grav.getD j 0 * arm d pconn conn g c (i - pconn.getD c 0) j)
      ⟨by simp [h1], fun k hk => by rw [getD_setK hil, if_neg hk], by rw [getD_setK hil, if_pos rfl]; simp⟩ (by
      rintro j b hj ⟨b1, b2, b3⟩
      have q1 := hm.fcentroid
      have q2 := hm.ccentroid
      have q3 := Nat.mul_le_mul_right d (show f + 1 ≤ nf from g2)
      have q4 := Nat.mul_le_mul_right d (show c + 1 ≤ nc from hc)
      rw [Nat.add_mul] at q3 q4
      have hb : i < b.length := by omega
      rw [rdK hb, bind_ok, rdK (by omega), bind_ok, rdK (by omega), bind_ok, rdK (by omega), bind_ok, wr_ok hb]
      refine ⟨_, rfl, by simp [b1], fun k hk => by rw [getD_setK hb, if_neg hk]; exact b2 k hk, ?_⟩
      rw [getD_setK hb, if_pos rfl, b3, Finset.sum_range_succ]
      congr 2
      unfold arm
      rw [← hf, Nat.add_comm j (f * d), Nat.add_comm j (c * d)])
    refine ⟨b, e, b1, fun c' i' hc' hi2 hlt => ?_⟩
    by_cases he : pconn.getD c' 0 + i' = i
    · have hadd' := Hybsys.pos_add hm.pos hc'
      have : c' = c := hm.pos.row_unique hc' hc (i := i) (by omega) (by omega) hi hi'
      subst this
      rw [he, b3, show i - pconn.getD c' 0 = i' by omega]
    · rw [b2 _ he]
      exact h2 c' i' hc' hi2 (by omega)) (fun c t _ h => h)
  refine ⟨gp', e, h1, fun c i hc hi => h2 c i hc hi ?_⟩
  have := Hybsys.pos_add hm.pos hc
  exact hm.pos.lt_total hc (by omega)

/-- **Mobilities.**  The inner products of each cell are multiplied by its total mobility. -/
theorem mobility_update {nc : Nat} {pconn : List Nat} (hp : RowPos nc pconn) {totmob B0 B : List K} (ht : nc ≤ totmob.length) (h0 : off2 pconn nc ≤ B0.length) (hB : off2 pconn nc ≤ B.length) :
    ∃ B', mobilityUpdate nc pconn totmob B0 B = .ok B' ∧ B'.length = B.length ∧
      ∀ c i j, c < nc → i < deg pconn c → j < deg pconn c → ipK pconn B' c i j = totmob.getD c 0 * ipK pconn B0 c i j := by
  unfold mobilityUpdate
  obtain ⟨B', e, h1, h2⟩ := Hybsys.cells_inv hp (s := B) (f := fun c n _ p2 B => loop (n * n) (fun i B => do
    let m ← rd totmob c
    let b ← rd B0 (p2 + i)
    wr B (p2 + i) (m * b)) B) (fun m A => A.length = B.length ∧ ∀ c k, c < m → k < deg pconn c * deg pconn c → A.getD (off2 pconn c + k) 0 = totmob.getD c 0 * B0.getD (off2 pconn c + k) 0)
    ⟨rfl, fun c k hc => absurd hc (Nat.not_lt_zero _)⟩ (by
    rintro c A hc ⟨h1, h2⟩
    have ho := Hybsys.off2_le (pconn := pconn) hc
    obtain ⟨A', e, q1, q2, q3⟩ := loop_inv (n := deg pconn c * deg pconn c) (s := A) (f := fun i B => do
      let m ← rd totmob c
      let b ← rd B0 (off2 pconn c + i)
      wr B (off2 pconn c + i) (m * b)) (fun m A' => A'.length = B.length ∧ (∀ k, k < off2 pconn c → A'.getD k 0 = A.getD k 0) ∧
        ∀ k, k < m → A'.getD (off2 pconn c + k) 0 = totmob.getD c 0 * B0.getD (off2 pconn c + k) 0) ⟨h1, fun k _ => rfl, fun k hk => absurd hk (Nat.not_lt_zero _)⟩ (by
      rintro i A' hi ⟨q1, q2, q3⟩
      have hl : off2 pconn c + i < A'.length := by omega
      rw [rdK (by omega), bind_ok, rdK (by omega), bind_ok, wr_ok hl]
      refine ⟨_, rfl, by simp [q1], fun k hk => by rw [getD_setK hl, if_neg (by omega)]; exact q2 k hk, fun k hk => ?_⟩
      rw [getD_setK hl]
      by_cases e : k = i
      · rw [if_pos (by omega), e]
      · rw [if_neg (by omega)]
        exact q3 k (by omega))
    refine ⟨A', e, q1, fun c' k hc' hk => ?_⟩
    rcases Nat.lt_or_ge c' c with h | h
    · have := Hybsys.off2_le (pconn := pconn) h
      rw [q2 _ (by omega)]
      exact h2 c' k h hk
    · obtain rfl : c' = c := by omega
      exact q3 k hk)
  exact ⟨B', e, h1, fun c i j hc hi hj => h2 c _ hc (lt_block hi hj)⟩

/-- **Densities.**  The gravity terms of each cell are multiplied by its density. -/
theorem density_update {nc : Nat} {pconn : List Nat} (hp : RowPos nc pconn) {omega g0 gp : List K} (ht : nc ≤ omega.length) (h0 : pconn.getD nc 0 ≤ g0.length) (hl : pconn.getD nc 0 ≤ gp.length) :
    ∃ gp', densityUpdate nc pconn omega g0 gp = .ok gp' ∧ gp'.length = gp.length ∧
      ∀ c i, c < nc → i < deg pconn c → gp'.getD (pconn.getD c 0 + i) 0 = omega.getD c 0 * g0.getD (pconn.getD c 0 + i) 0 := by
  unfold densityUpdate
  obtain ⟨gp', e, h1, h2⟩ := rowLoop_inv hp (s := gp) (f := fun c i a => do
    let w ← rd omega c
    let g ← rd g0 i
    wr a i (w * g)) (fun _ m a => a.length = gp.length ∧ ∀ c i, c < nc → i < deg pconn c → pconn.getD c 0 + i < m → a.getD (pconn.getD c 0 + i) 0 = omega.getD c 0 * g0.getD (pconn.getD c 0 + i) 0)
    ⟨rfl, fun c i _ _ h => absurd h (Nat.not_lt_zero _)⟩ (by
    rintro c i a hc hi hi' ⟨h1, h2⟩
    have htot := hp.lt_total hc hi'
    have hil : i < a.length := by omega
    rw [rdK (by omega), bind_ok, rdK (by omega), bind_ok, wr_ok hil]
    refine ⟨_, rfl, by simp [h1], fun c' i' hc' hi2 hlt => ?_⟩
    rw [getD_setK hil]
    split
    · next he =>
      have hadd' := Hybsys.pos_add hp hc'
      have : c' = c := hp.row_unique hc' hc (i := i) (by omega) (by omega) hi hi'
      rw [this] at he ⊢
      rw [he]
    · exact h2 c' i' hc' hi2 (by omega)) (fun c t _ h => h)
  refine ⟨gp', e, h1, fun c i hc hi => h2 c i hc hi ?_⟩
  have := Hybsys.pos_add hp hc
  exact hp.lt_total hc (by omega)

end

/-- **Positive definiteness.**  With positive definite permeabilities, positive volumes and areas that do not vanish the inner products are positive definite. -/
theorem inner_products_positive {K : Type} [Field K] [LinearOrder K] [IsStrictOrderedRing K] {qr : Nat → Nat → List K → List K} {nc nf d mx : Nat} {pconn conn : List Nat} {g : Geo K}
    (hm : MeshOk nc nf d mx pconn conn g) (hq : Orthonormalises qr nc d mx pconn conn g) (hcl : ClosedCells nc d pconn conn g) (hv : ∀ c, c < nc → 0 < g.cvol.getD c 0)
    (ha : ∀ c i, c < nc → i < deg pconn c → area pconn conn g c i ≠ 0) (hp : PermPos nc d g) (junk : Nat → K) {Binv : List K} (hB : off2 pconn nc ≤ Binv.length) :
    ∃ B, ipSimpleAll qr junk nc d mx pconn conn g Binv = .ok B ∧ B.length = Binv.length ∧
      ∀ c, c < nc → ∀ y : Nat → K, (∃ i, i < deg pconn c ∧ y i ≠ 0) →
        0 < ∑ i ∈ Finset.range (deg pconn c), ∑ j ∈ Finset.range (deg pconn c), y i * ipK pconn B c i j * y j := by
  obtain ⟨B, e, l, h⟩ := ipSimpleAll_ok hm hq junk hB
  refine ⟨B, e, l, fun c hc y hy => ?_⟩
  obtain ⟨Q, R, h1, h2, h3⟩ := h c hc
  rw [Finset.sum_congr rfl (fun i hi => Finset.sum_congr rfl (fun j hj => by rw [h3 i j (Finset.mem_range.1 hi) (Finset.mem_range.1 hj)]))]
  have hd : 0 < d := Nat.pos_of_ne_zero (fun h => hm.dimNe (by rw [h]; simp))
  have htr : 0 < ∑ k ∈ Finset.range d, permOf d g c k k := by
    have hdiag : ∀ k, k < d → 0 < permOf d g c k k := by
      intro k hk
      have := hp c hc (fun m => if m = k then 1 else 0) ⟨k, hk, by simp⟩
      simpa [Finset.sum_ite_eq', hk] using this
    exact Finset.sum_pos (fun k hk => hdiag k (Finset.mem_range.1 hk)) ⟨0, Finset.mem_range.2 hd⟩
  have hvc := hv c hc
  have hdK : (0 : K) < d := by exact_mod_cast hd
  exact cellIp_pos h1 h2 (fun k l hk hl => hcl c k l hc hk hl) hvc (by positivity) (fun i hi => ha c i hc hi) (hp c hc) y hy

/-- **The inner products suit the hybrid solver**: over the rationals they meet its hypotheses. -/
theorem inner_products_for_hybrid {qr : Nat → Nat → List Rat → List Rat} {nc nf d mx : Nat} {pconn conn : List Nat} {g : Geo Rat}
    (hm : MeshOk nc nf d mx pconn conn g) (hq : Orthonormalises qr nc d mx pconn conn g) (hcl : ClosedCells nc d pconn conn g) (hv : ∀ c, c < nc → 0 < g.cvol.getD c 0)
    (ha : ∀ c i, c < nc → i < deg pconn c → area pconn conn g c i ≠ 0) (hs : PermSym nc d g) (hp : PermPos nc d g) (junk : Nat → Rat) {Binv : List Rat} (hB : off2 pconn nc ≤ Binv.length) :
    ∃ B, ipSimpleAll qr junk nc d mx pconn conn g Binv = .ok B ∧ Hybsys.Symmetric nc pconn B ∧ Hybsys.PosDef nc pconn B := by
  obtain ⟨B, e, _, h, _⟩ := inner_products_consistent hm hq junk hB
  obtain ⟨B', e', _, h'⟩ := inner_products_positive hm hq hcl hv ha hp junk hB
  rw [e] at e'
  cases e'
  exact ⟨B, e, h hs, h'⟩

/-- A square whose left and right sides are divided into two faces each. -/
def square : Geo Rat where
  fneighbour := [-1, 0, -1, 0, 0, -1, 0, -1, -1, 0, 0, -1]
  fcentroid := [0, 1/4, 0, 3/4, 1, 1/4, 1, 3/4, 1/2, 0, 1/2, 1]
  fnormal := [1/2, 0, 1/2, 0, 1/2, 0, 1/2, 0, 0, 1, 0, 1]
  farea := [1/2, 1/2, 1/2, 1/2, 1, 1]
  ccentroid := [1/2, 1/2]
  cvol := [1]
  perm := [2, 1, 1, 3]

/-- The orthonormal factor of the square. -/
def squareQ : List Rat := [-1/2, -1/2, 1/2, 1/2, 0, 0, -1/6, 1/6, -1/6, 1/6, -2/3, 2/3]

theorem square_ok : MeshOk 1 6 2 6 [0, 6] [0, 1, 2, 3, 4, 5] square := by
  refine ⟨⟨by decide, rfl, ?_⟩, by decide +kernel, by decide +kernel, by decide, by decide +kernel, by decide, by decide, by decide, by decide, by decide, by decide, by decide, by decide +kernel⟩
  intro c a b hc ha hb
  match c, hc with
  | 0, _ => cases ha; cases hb; decide

theorem square_qr : Orthonormalises (fun _ _ _ => squareQ) 1 2 6 [0, 6] [0, 1, 2, 3, 4, 5] square := by
  intro c C hc hl hC
  obtain rfl : c = 0 := by omega
  have hdeg : deg [0, 6] 0 = 6 := rfl
  rw [hdeg]
  refine ⟨by rw [hl]; rfl, ?_, fun k j => if k = j then (if k = 0 then 1/2 else 3/4) else 0, ?_⟩
  · have key : ∀ k, k < 2 → ∀ l, l < 2 → ∑ i ∈ Finset.range 6, squareQ.getD (i + k * 6) 0 * squareQ.getD (i + l * 6) 0 = if k = l then 1 else 0 := by decide +kernel
    exact fun k l hk hl => key k hk l hl
  · have key : ∀ i, i < 6 → ∀ j, j < 2 → arm 2 [0, 6] [0, 1, 2, 3, 4, 5] square 0 i j * area [0, 6] [0, 1, 2, 3, 4, 5] square 0 i =
      ∑ k ∈ Finset.range 2, squareQ.getD (i + k * 6) 0 * (if k = j then (if k = 0 then 1/2 else 3/4) else 0) := by decide +kernel
    intro i j hi hj
    exact (hC i j hi hj).trans (key i hi j hj)

example : ClosedCells 1 2 [0, 6] [0, 1, 2, 3, 4, 5] square ∧ PermSym 1 2 square := by
  constructor
  · intro c k l hc hk hl
    have key : ∀ k, k < 2 → ∀ l, l < 2 → ∑ i ∈ Finset.range (deg [0, 6] 0), normal 2 [0, 6] [0, 1, 2, 3, 4, 5] square 0 i k * arm 2 [0, 6] [0, 1, 2, 3, 4, 5] square 0 i l =
      if k = l then square.cvol.getD 0 0 else 0 := by decide +kernel
    obtain rfl : c = 0 := by omega
    exact key k hk l hl
  · intro c k l hc hk hl
    have key : ∀ k, k < 2 → ∀ l, l < 2 → permOf 2 square 0 k l = permOf 2 square 0 l k := by decide +kernel
    obtain rfl : c = 0 := by omega
    exact key k hk l hl

example : PermPos 1 2 square := by
  intro c hc y hy
  obtain rfl : c = 0 := by omega
  have e : permOf 2 square 0 0 0 = 2 ∧ permOf 2 square 0 0 1 = 1 ∧ permOf 2 square 0 1 0 = 1 ∧ permOf 2 square 0 1 1 = 3 := by decide +kernel
  simp only [Finset.sum_range_succ, Finset.sum_range_zero, e.1, e.2.1, e.2.2.1, e.2.2.2]
  obtain ⟨k, hk, hne⟩ := hy
  have h : y 0 ≠ 0 ∨ y 1 ≠ 0 := by
    match k, hk with
    | 0, _ => exact Or.inl hne
    | 1, _ => exact Or.inr hne
  have h2 := mul_self_nonneg (y 0 + y 1)
  rcases h with h | h
  · have := mul_self_pos.2 h
    have := mul_self_nonneg (y 1)
    nlinarith
  · have := mul_self_pos.2 h
    have := mul_self_nonneg (y 0)
    nlinarith

/-- A row of the inner product of the square: two faces of the left side, two of the right, bottom and top. -/
example : (ipSimpleAll (fun _ _ _ => squareQ) (fun _ => 7) 1 2 6 [0, 6] [0, 1, 2, 3, 4, 5] square (List.replicate 36 9)).map (fun B => (List.range 6).map (ipK [0, 6] B 0 0)) =
    .ok [77/24, -1/3, 1/3, 13/24, -1/3, 1/3] := by decide +kernel

end Opm.Mimetic
