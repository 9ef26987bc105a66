import Verif.Spec.Quadrature
import Mathlib.Tactic.Ring
import Mathlib.Tactic.FieldSimp
import Mathlib.Tactic.LinearCombination
/-!
# Quadrature rules on triangles and tetrahedra
-/

namespace Opm.Quadrature
open Opm Opm.Geometry intervalIntegral

theorem poly_integral (a b c d e t : ℝ) : ∫ x in (0:ℝ)..t, (a + b * x + c * x ^ 2 + d * x ^ 3 + e * x ^ 4) = a * t + b * t ^ 2 / 2 + c * t ^ 3 / 3 + d * t ^ 4 / 4 + e * t ^ 5 / 5 := by
  have hc : ∀ f : ℝ → ℝ, Continuous f → IntervalIntegrable f MeasureTheory.volume 0 t := fun f hf => hf.intervalIntegrable _ _
  have h1 : ∫ x in (0:ℝ)..t, b * x = b * t ^ 2 / 2 := by rw [integral_const_mul, integral_id]; ring
  rw [integral_add (hc _ (by fun_prop)) (hc _ (by fun_prop)), integral_add (hc _ (by fun_prop)) (hc _ (by fun_prop)), integral_add (hc _ (by fun_prop)) (hc _ (by fun_prop)),
    integral_add (hc _ (by fun_prop)) (hc _ (by fun_prop)), h1]
  simp only [integral_const_mul, integral_const, integral_pow]
  simp
  ring

/-- A quadratic function of two parameters. -/
theorem tri_integral (A B C D E F : ℝ) :
    ∫ u in (0 : ℝ)..1, ∫ v in (0 : ℝ)..1 - u, (A + B * u + C * v + D * (u * u) + E * (u * v) + F * (v * v)) = A / 2 + B / 6 + C / 6 + D / 12 + E / 24 + F / 12 := by
  have h1 : ∀ u : ℝ, ∫ v in (0 : ℝ)..1 - u, (A + B * u + C * v + D * (u * u) + E * (u * v) + F * (v * v)) =
      (A + C / 2 + F / 3) + (B - A - C + E / 2 - F) * u + (D - B + C / 2 - E + F) * u ^ 2 + (E / 2 - D - F / 3) * u ^ 3 + 0 * u ^ 4 := by
    intro u
    have : ∀ v : ℝ, A + B * u + C * v + D * (u * u) + E * (u * v) + F * (v * v) = (A + B * u + D * (u * u)) + (C + E * u) * v + F * v ^ 2 + 0 * v ^ 3 + 0 * v ^ 4 := fun v => by ring
    simp only [this]
    rw [poly_integral]
    ring
  simp only [h1]
  rw [poly_integral]
  ring

/-- A quadratic function of three parameters. -/
theorem tet_integral (A B C D E F G H I J : ℝ) :
    ∫ u in (0 : ℝ)..1, ∫ v in (0 : ℝ)..1 - u, ∫ w in (0 : ℝ)..1 - u - v,
      (A + B * u + C * v + D * w + E * (u * u) + F * (v * v) + G * (w * w) + H * (u * v) + I * (u * w) + J * (v * w)) =
    A / 6 + (B + C + D) / 24 + (E + F + G) / 60 + (H + I + J) / 120 := by
  have h1 : ∀ u v : ℝ, ∫ w in (0 : ℝ)..1 - u - v, (A + B * u + C * v + D * w + E * (u * u) + F * (v * v) + G * (w * w) + H * (u * v) + I * (u * w) + J * (v * w)) =
      (A + B * u + E * u ^ 2) * (1 - u) + (D + I * u) * (1 - u) ^ 2 / 2 + G * (1 - u) ^ 3 / 3
      + (-(A + B * u + E * u ^ 2) + (C + H * u) * (1 - u) - (D + I * u) * (1 - u) + J * (1 - u) ^ 2 / 2 - G * (1 - u) ^ 2) * v
      + (-(C + H * u) + F * (1 - u) + (D + I * u) / 2 - J * (1 - u) + G * (1 - u)) * v ^ 2 + (-F + J / 2 - G / 3) * v ^ 3 + 0 * v ^ 4 := by
    intro u v
    have : ∀ w : ℝ, A + B * u + C * v + D * w + E * (u * u) + F * (v * v) + G * (w * w) + H * (u * v) + I * (u * w) + J * (v * w) =
        (A + B * u + C * v + E * (u * u) + F * (v * v) + H * (u * v)) + (D + I * u + J * v) * w + G * w ^ 2 + 0 * w ^ 3 + 0 * w ^ 4 := fun w => by ring
    simp only [this]
    rw [poly_integral]
    ring
  simp only [h1]
  have h2 : ∀ u : ℝ, ∫ v in (0 : ℝ)..1 - u, ((A + B * u + E * u ^ 2) * (1 - u) + (D + I * u) * (1 - u) ^ 2 / 2 + G * (1 - u) ^ 3 / 3
      + (-(A + B * u + E * u ^ 2) + (C + H * u) * (1 - u) - (D + I * u) * (1 - u) + J * (1 - u) ^ 2 / 2 - G * (1 - u) ^ 2) * v
      + (-(C + H * u) + F * (1 - u) + (D + I * u) / 2 - J * (1 - u) + G * (1 - u)) * v ^ 2 + (-F + J / 2 - G / 3) * v ^ 3 + 0 * v ^ 4) =
      (A / 2 + (C + D) / 6 + (F + G) / 12 + J / 24) + (B / 2 - A + (H + I) / 6 - (C + D) / 2 - (F + G) / 3 - J / 6) * u
      + (A / 2 - B + E / 2 + (C + D) / 2 - (H + I) / 2 + (F + G) / 2 + J / 4) * u ^ 2
      + (B / 2 - E - (C + D) / 6 + (H + I) / 2 - (F + G) / 3 - J / 6) * u ^ 3 + (E / 2 - (H + I) / 6 + (F + G) / 12 + J / 24) * u ^ 4 := by
    intro u
    rw [poly_integral]
    ring
  simp only [h2]
  rw [poly_integral]
  ring

/-- Functions of two parameters that are quadratic. -/
theorem tri_midpoints {h : ℝ → ℝ → ℝ} (hh : ∀ u v, h u v = h 0 0 + (4 * h (1 / 2) 0 - 3 * h 0 0 - h 1 0) * u + (4 * h 0 (1 / 2) - 3 * h 0 0 - h 0 1) * v +
      (2 * h 1 0 + 2 * h 0 0 - 4 * h (1 / 2) 0) * (u * u) + (h 1 1 - h 1 0 - h 0 1 + h 0 0) * (u * v) + (2 * h 0 1 + 2 * h 0 0 - 4 * h 0 (1 / 2)) * (v * v)) :
    ∫ u in (0 : ℝ)..1, ∫ v in (0 : ℝ)..1 - u, h u v = (h (1 / 2) (1 / 2) + h (1 / 2) 0 + h 0 (1 / 2)) / 6 := by
  have hc := hh (1 / 2) (1 / 2)
  generalize h 0 0 = h00 at *
  generalize h (1 / 2) 0 = h20 at *
  generalize h 1 0 = h10 at *
  generalize h 0 1 = h01 at *
  generalize h 0 (1 / 2) = h02 at *
  generalize h 1 1 = h11 at *
  rw [hc]
  simp only [hh]
  rw [tri_integral]
  ring

/-- Functions of three parameters that are quadratic. -/
theorem tet_values {h : ℝ → ℝ → ℝ → ℝ} (hh : ∀ u v w, h u v w = h 0 0 0 + (4 * h (1 / 2) 0 0 - 3 * h 0 0 0 - h 1 0 0) * u + (4 * h 0 (1 / 2) 0 - 3 * h 0 0 0 - h 0 1 0) * v +
      (4 * h 0 0 (1 / 2) - 3 * h 0 0 0 - h 0 0 1) * w + (2 * h 1 0 0 + 2 * h 0 0 0 - 4 * h (1 / 2) 0 0) * (u * u) + (2 * h 0 1 0 + 2 * h 0 0 0 - 4 * h 0 (1 / 2) 0) * (v * v) +
      (2 * h 0 0 1 + 2 * h 0 0 0 - 4 * h 0 0 (1 / 2)) * (w * w) + (h 1 1 0 - h 1 0 0 - h 0 1 0 + h 0 0 0) * (u * v) + (h 1 0 1 - h 1 0 0 - h 0 0 1 + h 0 0 0) * (u * w) +
      (h 0 1 1 - h 0 1 0 - h 0 0 1 + h 0 0 0) * (v * w)) :
    ∫ u in (0 : ℝ)..1, ∫ v in (0 : ℝ)..1 - u, ∫ w in (0 : ℝ)..1 - u - v, h u v w = h 0 0 0 / 6 +
      (4 * h (1 / 2) 0 0 - 3 * h 0 0 0 - h 1 0 0 + (4 * h 0 (1 / 2) 0 - 3 * h 0 0 0 - h 0 1 0) + (4 * h 0 0 (1 / 2) - 3 * h 0 0 0 - h 0 0 1)) / 24 +
      (2 * h 1 0 0 + 2 * h 0 0 0 - 4 * h (1 / 2) 0 0 + (2 * h 0 1 0 + 2 * h 0 0 0 - 4 * h 0 (1 / 2) 0) + (2 * h 0 0 1 + 2 * h 0 0 0 - 4 * h 0 0 (1 / 2))) / 60 +
      (h 1 1 0 - h 1 0 0 - h 0 1 0 + h 0 0 0 + (h 1 0 1 - h 1 0 0 - h 0 0 1 + h 0 0 0) + (h 0 1 1 - h 0 1 0 - h 0 0 1 + h 0 0 0)) / 120 := by
  rw [← tet_integral]
  simp only [← hh]

/-- Simpson's rule is exact on a line. -/
theorem simpson_rule (length : Rat) (a b : V3) (q : Quad) :
    lineIntegral length a b q = ((length * (1 / 6 * q.at a + 4 / 6 * q.at (V3.smul (1 / 2) (a + b)) + 1 / 6 * q.at b) : Rat) : ℝ) := by
  obtain ⟨ax, ay, az⟩ := a
  obtain ⟨bx, cy, bz⟩ := b
  obtain ⟨q1, qx, qy, qz, qxx, qyy, qzz, qxy, qxz, qyz⟩ := q
  unfold lineIntegral
  let h : ℝ → ℝ := fun t => Quad.val ⟨q1, qx, qy, qz, qxx, qyy, qzz, qxy, qxz, qyz⟩ ((ax : ℝ) + t * ((bx : ℝ) - ax)) ((ay : ℝ) + t * ((cy : ℝ) - ay)) ((az : ℝ) + t * ((bz : ℝ) - az))
  have hh : ∀ t, h t = h 0 + (4 * h (1 / 2) - 3 * h 0 - h 1) * t + (2 * h 1 + 2 * h 0 - 4 * h (1 / 2)) * t ^ 2 + 0 * t ^ 3 + 0 * t ^ 4 := by
    intro t
    simp only [h, Quad.val]
    ring
  have hi : ∫ t in (0 : ℝ)..1, h t = h 0 / 6 + 4 * h (1 / 2) / 6 + h 1 / 6 := by
    generalize h 0 = h0 at *
    generalize h (1 / 2) = h2 at *
    generalize h 1 = h1 at *
    simp only [hh]
    rw [poly_integral]
    ring
  change (length : ℝ) * ∫ t in (0 : ℝ)..1, h t = _
  rw [hi]
  have e1 : (⟨ax, ay, az⟩ : V3) + ⟨bx, cy, bz⟩ = ⟨ax + bx, ay + cy, az + bz⟩ := rfl
  simp only [h, Quad.at, Quad.val, V3.smul, e1]
  push_cast
  ring

/-- The rule of the midpoints of the sides is exact on a triangle. -/
theorem midpoint_rule (area : Rat) (o a b : V3) (q : Quad) :
    triIntegral area o a b q = ((area / 3 * (q.at (V3.smul (1 / 2) (a + b)) + q.at (V3.smul (1 / 2) (a + o)) + q.at (V3.smul (1 / 2) (b + o))) : Rat) : ℝ) := by
  obtain ⟨ox, oy, oz⟩ := o
  obtain ⟨ax, ay, az⟩ := a
  obtain ⟨bx, cy, bz⟩ := b
  obtain ⟨q1, qx, qy, qz, qxx, qyy, qzz, qxy, qxz, qyz⟩ := q
  unfold triIntegral along
  rw [tri_midpoints (fun u v => by simp only [Quad.val]; ring)]
  have e1 : (⟨ax, ay, az⟩ : V3) + ⟨bx, cy, bz⟩ = ⟨ax + bx, ay + cy, az + bz⟩ := rfl
  have e2 : (⟨ax, ay, az⟩ : V3) + ⟨ox, oy, oz⟩ = ⟨ax + ox, ay + oy, az + oz⟩ := rfl
  have e3 : (⟨bx, cy, bz⟩ : V3) + ⟨ox, oy, oz⟩ = ⟨bx + ox, cy + oy, bz + oz⟩ := rfl
  simp only [Quad.at, Quad.val, V3.smul, e1, e2, e3]
  push_cast
  ring

/-- The point with barycentric coordinates `α` but for coordinate `k`. -/
def tetPoint (α : Rat) (o a b d : V3) (k : Nat) : V3 :=
  V3.smul (if k = 0 then 1 - 3 * α else α) o + V3.smul (if k = 1 then 1 - 3 * α else α) a + V3.smul (if k = 2 then 1 - 3 * α else α) b + V3.smul (if k = 3 then 1 - 3 * α else α) d

/-- The rule of four points in a tetrahedron. -/
theorem four_point_rule (α : Rat) (o a b d : V3) (q : Quad) :
    ((tetVol o a b d / 4 * (q.at (tetPoint α o a b d 0) + q.at (tetPoint α o a b d 1) + q.at (tetPoint α o a b d 2) + q.at (tetPoint α o a b d 3)) : Rat) : ℝ) =
      tetIntegral o a b d q + ((tetVol o a b d * ((20 * α ^ 2 - 10 * α + 1) / 20) *
        (q.form (a - o) + q.form (b - o) + q.form (d - o) + q.form (b - a) + q.form (d - a) + q.form (d - b)) : Rat) : ℝ) := by
  unfold tetIntegral
  generalize tetVol o a b d = V
  obtain ⟨ox, oy, oz⟩ := o
  obtain ⟨ax, ay, az⟩ := a
  obtain ⟨bx, cy, bz⟩ := b
  obtain ⟨dx, dy, dz⟩ := d
  obtain ⟨q1, qx, qy, qz, qxx, qyy, qzz, qxy, qxz, qyz⟩ := q
  unfold along3
  rw [tet_values (fun u v w => by simp only [Quad.val]; ring)]
  have es : ∀ p₁ p₂ p₃ r₁ r₂ r₃ : Rat, (⟨p₁, p₂, p₃⟩ : V3) - ⟨r₁, r₂, r₃⟩ = ⟨p₁ - r₁, p₂ - r₂, p₃ - r₃⟩ := fun _ _ _ _ _ _ => rfl
  have ea : ∀ p₁ p₂ p₃ r₁ r₂ r₃ : Rat, (⟨p₁, p₂, p₃⟩ : V3) + ⟨r₁, r₂, r₃⟩ = ⟨p₁ + r₁, p₂ + r₂, p₃ + r₃⟩ := fun _ _ _ _ _ _ => rfl
  simp only [tetPoint, Quad.at, Quad.val, Quad.form, V3.smul, es, ea, if_true, if_false, OfNat.ofNat_ne_zero, OfNat.ofNat_ne_one, OfNat.zero_ne_ofNat, OfNat.one_ne_ofNat, zero_ne_one,
    one_ne_zero, Nat.reduceEqDiff]
  push_cast
  ring

end Opm.Quadrature
