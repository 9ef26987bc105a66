import Mathlib.Algebra.BigOperators.Group.Finset.Basic
import Mathlib.Algebra.BigOperators.Ring.Finset
import Mathlib.Algebra.BigOperators.Fin
import Mathlib.Algebra.Order.BigOperators.Ring.Finset
import Mathlib.Algebra.Order.Field.Basic
import Mathlib.LinearAlgebra.Matrix.ToLin
import Mathlib.LinearAlgebra.Matrix.NonsingularInverse
import Mathlib.Tactic.Ring
import Mathlib.Tactic.Linarith
import Mathlib.Tactic.FieldSimp
import Mathlib.Tactic.Positivity
/-!
# Mimetic inner products: the algebra of one cell
-/

namespace Opm.Mimetic

section
variable {K : Type} [Field K] [DecidableEq K]
variable {n d : Nat} {N C Q R P : Nat → Nat → K} {A : Nat → K} {vol a2 : K}

/-- The formula for one cell. -/
def cellIp (d : Nat) (N Q P : Nat → Nat → K) (A : Nat → K) (vol a2 : K) (i j : Nat) : K :=
  1 / vol * (∑ k ∈ Finset.range d, (∑ l ∈ Finset.range d, N i l * P l k) * N j k) +
    a2 * (((if i = j then 1 else 0) - ∑ k ∈ Finset.range d, Q i k * Q j k) * (A i * A j))

theorem cellIp_symm (hP : ∀ k l, k < d → l < d → P k l = P l k) (i j : Nat) : cellIp d N Q P A vol a2 i j = cellIp d N Q P A vol a2 j i := by
  unfold cellIp
  congr 1
  · congr 1
    simp only [Finset.sum_mul]
    rw [Finset.sum_comm]
    refine Finset.sum_congr rfl (fun k hk => Finset.sum_congr rfl (fun l hl => ?_))
    rw [hP k l (Finset.mem_range.1 hk) (Finset.mem_range.1 hl)]
    ring
  · rw [mul_comm (A i) (A j)]
    congr 3
    · simp only [eq_comm]
    · exact Finset.sum_congr rfl (fun k _ => mul_comm _ _)

/-- `B y = N K Nᵀ y / vol + a2 A (1 - Q Qᵀ) A y`. -/
theorem cellIp_mul (y : Nat → K) {i : Nat} (hi : i < n) : ∑ j ∈ Finset.range n, cellIp d N Q P A vol a2 i j * y j =
    1 / vol * (∑ k ∈ Finset.range d, (∑ l ∈ Finset.range d, N i l * P l k) * ∑ j ∈ Finset.range n, N j k * y j) +
      a2 * (A i * (A i * y i - ∑ k ∈ Finset.range d, Q i k * ∑ j ∈ Finset.range n, Q j k * (A j * y j))) := by
  have e1 : ∑ k ∈ Finset.range d, (∑ l ∈ Finset.range d, N i l * P l k) * ∑ j ∈ Finset.range n, N j k * y j =
      ∑ j ∈ Finset.range n, (∑ k ∈ Finset.range d, (∑ l ∈ Finset.range d, N i l * P l k) * N j k) * y j := by
    simp only [Finset.mul_sum, Finset.sum_mul]
    rw [Finset.sum_comm]
    refine Finset.sum_congr rfl (fun j _ => Finset.sum_congr rfl (fun k _ => ?_))
    exact Finset.sum_congr rfl (fun l _ => by ring)
  have e2 : ∑ k ∈ Finset.range d, Q i k * ∑ j ∈ Finset.range n, Q j k * (A j * y j) = ∑ j ∈ Finset.range n, (∑ k ∈ Finset.range d, Q i k * Q j k) * (A j * y j) := by
    simp only [Finset.mul_sum, Finset.sum_mul]
    rw [Finset.sum_comm]
    refine Finset.sum_congr rfl (fun j _ => Finset.sum_congr rfl (fun k _ => ?_))
    ring
  have e3 : A i * y i = ∑ j ∈ Finset.range n, (if i = j then 1 else 0) * (A j * y j) := by
    simp only [ite_mul, one_mul, zero_mul]
    rw [Finset.sum_ite_eq, if_pos (Finset.mem_range.2 hi)]
  rw [e1, e2, e3, ← Finset.sum_sub_distrib, Finset.mul_sum, Finset.mul_sum, Finset.mul_sum, ← Finset.sum_add_distrib]
  refine Finset.sum_congr rfl (fun j _ => ?_)
  unfold cellIp
  ring

variable (ho : ∀ k l, k < d → l < d → ∑ i ∈ Finset.range n, Q i k * Q i l = if k = l then 1 else 0)
  (hR : ∀ i j, i < n → j < d → C i j * A i = ∑ k ∈ Finset.range d, Q i k * R k j)
  (hcl : ∀ k l, k < d → l < d → ∑ i ∈ Finset.range n, N i k * C i l = if k = l then vol else 0)

include ho in
theorem qtq (s : Nat → K) {k : Nat} (hk : k < d) : ∑ j ∈ Finset.range n, Q j k * ∑ m ∈ Finset.range d, Q j m * s m = s k := by
  simp only [Finset.mul_sum]
  rw [Finset.sum_comm]
  have : ∀ m ∈ Finset.range d, ∑ j ∈ Finset.range n, Q j k * (Q j m * s m) = if k = m then s m else 0 := by
    intro m hm
    have h := ho k m hk (Finset.mem_range.1 hm)
    have e : ∑ j ∈ Finset.range n, Q j k * (Q j m * s m) = (∑ j ∈ Finset.range n, Q j k * Q j m) * s m := by
      rw [Finset.sum_mul]
      exact Finset.sum_congr rfl (fun j _ => by ring)
    rw [e, h]
    split <;> simp
  rw [Finset.sum_congr rfl this, Finset.sum_ite_eq, if_pos (Finset.mem_range.2 hk)]

include hcl in
theorem ntc (z : Nat → K) {k : Nat} (hk : k < d) : ∑ j ∈ Finset.range n, N j k * ∑ l ∈ Finset.range d, C j l * z l = vol * z k := by
  simp only [Finset.mul_sum]
  rw [Finset.sum_comm]
  have : ∀ l ∈ Finset.range d, ∑ j ∈ Finset.range n, N j k * (C j l * z l) = if k = l then vol * z l else 0 := by
    intro l hl
    have h := hcl k l hk (Finset.mem_range.1 hl)
    have e : ∑ j ∈ Finset.range n, N j k * (C j l * z l) = (∑ j ∈ Finset.range n, N j k * C j l) * z l := by
      rw [Finset.sum_mul]
      exact Finset.sum_congr rfl (fun j _ => by ring)
    rw [e, h]
    split <;> simp
  rw [Finset.sum_congr rfl this, Finset.sum_ite_eq, if_pos (Finset.mem_range.2 hk)]

include hR in
theorem weighted (z : Nat → K) {i : Nat} (hi : i < n) :
    A i * ∑ l ∈ Finset.range d, C i l * z l = ∑ k ∈ Finset.range d, Q i k * ∑ j ∈ Finset.range d, R k j * z j := by
  have e : A i * ∑ l ∈ Finset.range d, C i l * z l = ∑ l ∈ Finset.range d, (∑ k ∈ Finset.range d, Q i k * R k l) * z l := by
    rw [Finset.mul_sum]
    refine Finset.sum_congr rfl (fun l hl => ?_)
    rw [← hR i l hi (Finset.mem_range.1 hl)]
    ring
  rw [e]
  simp only [Finset.mul_sum, Finset.sum_mul]
  rw [Finset.sum_comm]
  refine Finset.sum_congr rfl (fun k _ => Finset.sum_congr rfl (fun l _ => ?_))
  ring

include ho hR hcl in
/-- Linear pressures give exact fluxes. -/
theorem cellIp_exact (hv : vol ≠ 0) (z : Nat → K) {i : Nat} (hi : i < n) :
    ∑ j ∈ Finset.range n, cellIp d N Q P A vol a2 i j * (∑ l ∈ Finset.range d, C j l * z l) = ∑ l ∈ Finset.range d, N i l * ∑ k ∈ Finset.range d, P l k * z k := by
  rw [cellIp_mul _ hi]
  have e1 : ∀ k ∈ Finset.range d, Q i k * ∑ j ∈ Finset.range n, Q j k * (A j * ∑ l ∈ Finset.range d, C j l * z l) = Q i k * ∑ j ∈ Finset.range d, R k j * z j := by
    intro k hk
    rw [Finset.sum_congr rfl (fun j hj => by rw [weighted hR z (Finset.mem_range.1 hj)]), qtq ho _ (Finset.mem_range.1 hk)]
  have e2 : ∀ k ∈ Finset.range d, (∑ l ∈ Finset.range d, N i l * P l k) * ∑ j ∈ Finset.range n, N j k * (∑ l ∈ Finset.range d, C j l * z l) =
      (∑ l ∈ Finset.range d, N i l * P l k) * (vol * z k) := by
    intro k hk
    rw [ntc hcl z (Finset.mem_range.1 hk)]
  rw [Finset.sum_congr rfl e1, ← weighted hR z hi, sub_self, mul_zero, mul_zero, add_zero, Finset.sum_congr rfl e2]
  have e3 : ∑ k ∈ Finset.range d, (∑ l ∈ Finset.range d, N i l * P l k) * (vol * z k) = vol * ∑ l ∈ Finset.range d, N i l * ∑ k ∈ Finset.range d, P l k * z k := by
    simp only [Finset.mul_sum, Finset.sum_mul]
    rw [Finset.sum_comm]
    refine Finset.sum_congr rfl (fun k _ => Finset.sum_congr rfl (fun l _ => ?_))
    ring
  rw [e3]
  field_simp

include hR hcl in
/-- The triangular factor is onto. -/
theorem r_onto (hv : vol ≠ 0) (hA : ∀ i, i < n → A i ≠ 0) (s : Nat → K) : ∃ z : Nat → K, ∀ k, k < d → ∑ j ∈ Finset.range d, R k j * z j = s k := by
  let M : Matrix (Fin d) (Fin d) K := fun a b => R a b
  have hinj : Function.Injective M.mulVec := by
    have hlin : ∀ w : Fin d → K, M.mulVec w = 0 → w = 0 := by
      intro w hw
      let z : Nat → K := fun k => if h : k < d then w ⟨k, h⟩ else 0
      have hz : ∀ k, k < d → ∑ j ∈ Finset.range d, R k j * z j = 0 := by
        intro k hk
        have := congrFun hw ⟨k, hk⟩
        rw [Finset.sum_range]
        simpa [M, Matrix.mulVec, dotProduct, z] using this
      have hc : ∀ i, i < n → ∑ l ∈ Finset.range d, C i l * z l = 0 := by
        intro i hi
        have := weighted hR z hi
        have h0 : ∑ k ∈ Finset.range d, Q i k * ∑ j ∈ Finset.range d, R k j * z j = 0 := Finset.sum_eq_zero (fun k hk => by rw [hz k (Finset.mem_range.1 hk), mul_zero])
        rw [h0] at this
        exact (mul_eq_zero.1 this).resolve_left (hA i hi)
      funext a
      have := ntc hcl z a.2
      rw [Finset.sum_eq_zero (fun j hj => by rw [hc j (Finset.mem_range.1 hj), mul_zero])] at this
      have := (mul_eq_zero.1 this.symm).resolve_left hv
      simpa [z] using this
    intro u w h
    have := hlin (u - w) (by rw [Matrix.mulVec_sub, h, sub_self])
    exact sub_eq_zero.1 this
  have hsur : Function.Surjective M.mulVec := Matrix.mulVec_surjective_iff_isUnit.2 (Matrix.mulVec_injective_iff_isUnit.1 hinj)
  obtain ⟨w, hw⟩ := hsur (fun k => s k)
  refine ⟨fun k => if h : k < d then w ⟨k, h⟩ else 0, fun k hk => ?_⟩
  have := congrFun hw ⟨k, hk⟩
  rw [Finset.sum_range]
  simpa [M, Matrix.mulVec, dotProduct] using this

end

section
variable {K : Type} [Field K] [LinearOrder K] [IsStrictOrderedRing K]
variable {n d : Nat} {N C Q R P : Nat → Nat → K} {A : Nat → K} {vol a2 : K}

theorem cellIp_pos (ho : ∀ k l, k < d → l < d → ∑ i ∈ Finset.range n, Q i k * Q i l = if k = l then 1 else 0)
    (hR : ∀ i j, i < n → j < d → C i j * A i = ∑ k ∈ Finset.range d, Q i k * R k j)
    (hcl : ∀ k l, k < d → l < d → ∑ i ∈ Finset.range n, N i k * C i l = if k = l then vol else 0)
    (hv : 0 < vol) (ha : 0 < a2) (hA : ∀ i, i < n → A i ≠ 0)
    (hP : ∀ y : Nat → K, (∃ k, k < d ∧ y k ≠ 0) → 0 < ∑ k ∈ Finset.range d, ∑ l ∈ Finset.range d, y k * P k l * y l) (y : Nat → K) (hy : ∃ i, i < n ∧ y i ≠ 0) :
    0 < ∑ i ∈ Finset.range n, ∑ j ∈ Finset.range n, y i * cellIp d N Q P A vol a2 i j * y j := by
  let u : Nat → K := fun k => ∑ j ∈ Finset.range n, N j k * y j
  let s : Nat → K := fun k => ∑ j ∈ Finset.range n, Q j k * (A j * y j)
  let w : Nat → K := fun i => A i * y i - ∑ k ∈ Finset.range d, Q i k * s k
  have e : ∑ i ∈ Finset.range n, ∑ j ∈ Finset.range n, y i * cellIp d N Q P A vol a2 i j * y j =
      1 / vol * (∑ k ∈ Finset.range d, ∑ l ∈ Finset.range d, u k * P k l * u l) + a2 * ∑ i ∈ Finset.range n, (A i * y i) * w i := by
    have e1 : ∀ i ∈ Finset.range n, ∑ j ∈ Finset.range n, y i * cellIp d N Q P A vol a2 i j * y j =
        1 / vol * (∑ k ∈ Finset.range d, ∑ l ∈ Finset.range d, (N i l * y i) * P l k * u k) + a2 * ((A i * y i) * w i) := by
      intro i hi
      have h := cellIp_mul (N := N) (Q := Q) (P := P) (A := A) (vol := vol) (a2 := a2) (d := d) y (Finset.mem_range.1 hi)
      have : ∑ j ∈ Finset.range n, y i * cellIp d N Q P A vol a2 i j * y j = y i * ∑ j ∈ Finset.range n, cellIp d N Q P A vol a2 i j * y j := by
        rw [Finset.mul_sum]
        exact Finset.sum_congr rfl (fun j _ => by ring)
      rw [this, h]
      have h2 : ∑ k ∈ Finset.range d, ∑ l ∈ Finset.range d, (N i l * y i) * P l k * u k = y i * ∑ k ∈ Finset.range d, (∑ l ∈ Finset.range d, N i l * P l k) * u k := by
        simp only [Finset.mul_sum, Finset.sum_mul]
        exact Finset.sum_congr rfl (fun k _ => Finset.sum_congr rfl (fun l _ => by ring))
      rw [h2]
      show y i * (1 / vol * _ + a2 * (A i * w i)) = _
      ring
    rw [Finset.sum_congr rfl e1, Finset.sum_add_distrib, ← Finset.mul_sum, ← Finset.mul_sum]
    congr 2
    rw [Finset.sum_comm]
    rw [Finset.sum_comm (s := Finset.range d) (t := Finset.range d) (f := fun k l => u k * P k l * u l)]
    refine Finset.sum_congr rfl (fun k _ => ?_)
    rw [Finset.sum_comm]
    refine Finset.sum_congr rfl (fun l _ => ?_)
    rw [← Finset.sum_mul, ← Finset.sum_mul]
  have hQw : ∀ k, k < d → ∑ i ∈ Finset.range n, Q i k * w i = 0 := by
    intro k hk
    have := qtq ho s hk
    have h2 : ∑ i ∈ Finset.range n, Q i k * w i = s k - ∑ i ∈ Finset.range n, Q i k * ∑ m ∈ Finset.range d, Q i m * s m := by
      rw [← Finset.sum_sub_distrib]
      exact Finset.sum_congr rfl (fun i _ => by simp only [w]; ring)
    rw [h2, this, sub_self]
  have e2 : ∑ i ∈ Finset.range n, (A i * y i) * w i = ∑ i ∈ Finset.range n, w i * w i := by
    have : ∀ i ∈ Finset.range n, (A i * y i) * w i = w i * w i + ∑ k ∈ Finset.range d, s k * (Q i k * w i) := by
      intro i _
      have : ∑ k ∈ Finset.range d, s k * (Q i k * w i) = (∑ k ∈ Finset.range d, Q i k * s k) * w i := by
        rw [Finset.sum_mul]
        exact Finset.sum_congr rfl (fun k _ => by ring)
      rw [this]
      simp only [w]
      ring
    rw [Finset.sum_congr rfl this, Finset.sum_add_distrib, Finset.sum_comm, Finset.sum_eq_zero (s := Finset.range d), add_zero]
    intro k hk
    rw [← Finset.mul_sum, hQw k (Finset.mem_range.1 hk), mul_zero]
  rw [e, e2]
  have hw0 : 0 ≤ ∑ i ∈ Finset.range n, w i * w i := Finset.sum_nonneg (fun i _ => mul_self_nonneg _)
  have hvi : 0 < 1 / vol := by positivity
  by_cases hu : ∃ k, k < d ∧ u k ≠ 0
  · have := hP u hu
    have := mul_pos hvi this
    have := mul_nonneg (le_of_lt ha) hw0
    linarith
  · have hu0 : ∀ k, k < d → u k = 0 := fun k hk => by
      by_contra h
      exact hu ⟨k, hk, h⟩
    rw [Finset.sum_eq_zero (s := Finset.range d) (f := fun k => ∑ l ∈ Finset.range d, u k * P k l * u l), mul_zero, zero_add]
    · refine mul_pos ha (lt_of_le_of_ne hw0 (fun h => ?_))
      have hwz : ∀ i, i < n → w i = 0 := by
        intro i hi
        have := (Finset.sum_eq_zero_iff_of_nonneg (fun i _ => mul_self_nonneg (w i))).1 h.symm i (Finset.mem_range.2 hi)
        exact mul_self_eq_zero.1 this
      obtain ⟨z, hz⟩ := r_onto hR hcl (ne_of_gt hv) hA s
      have hyC : ∀ i, i < n → y i = ∑ l ∈ Finset.range d, C i l * z l := by
        intro i hi
        have h1 := weighted hR z hi
        have h0 : ∑ k ∈ Finset.range d, Q i k * ∑ j ∈ Finset.range d, R k j * z j = ∑ k ∈ Finset.range d, Q i k * s k :=
          Finset.sum_congr rfl (fun k hk => by rw [hz k (Finset.mem_range.1 hk)])
        rw [h0] at h1
        have h2 := hwz i hi
        have h3 : A i * y i = A i * ∑ l ∈ Finset.range d, C i l * z l := by
          rw [h1]
          exact sub_eq_zero.1 h2
        exact mul_left_cancel₀ (hA i hi) h3
      have hz0 : ∀ k, k < d → z k = 0 := by
        intro k hk
        have h1 := ntc hcl z hk
        have h0 : u k = ∑ j ∈ Finset.range n, N j k * ∑ l ∈ Finset.range d, C j l * z l := Finset.sum_congr rfl (fun j hj => by rw [hyC j (Finset.mem_range.1 hj)])
        rw [← h0] at h1
        have h2 : vol * z k = 0 := h1.symm.trans (hu0 k hk)
        exact (mul_eq_zero.1 h2).resolve_left (ne_of_gt hv)
      obtain ⟨i, hi, hne⟩ := hy
      exact hne (by rw [hyC i hi]; exact Finset.sum_eq_zero (fun l hl => by rw [hz0 l (Finset.mem_range.1 hl), mul_zero]))
    · intro k hk
      exact Finset.sum_eq_zero (fun l _ => by rw [hu0 k (Finset.mem_range.1 hk), zero_mul, zero_mul])

end

end Opm.Mimetic
