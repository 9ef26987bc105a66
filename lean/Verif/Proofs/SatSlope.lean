import Verif.Proofs.Slope
import Verif.Proofs.SatFunc
import Verif.Props.Pvt
/-!
# Slopes along lines, and tables of saturation functions
-/

namespace Opm.Rock
open Opm Opm.Interp

/-- A function along a line. -/
theorem SlopeAt.line {f : Rat → M Rat} {a d : Rat} (h : SlopeAt f a d) (c : Rat) : SlopeAt (fun t => f (a + t * c)) 0 (d * c) := by
  obtain ⟨v, C, δ, e, h0, h1⟩ := h
  have hc : 0 < |c| + 1 := by positivity
  refine ⟨v, C * c ^ 2, δ / (|c| + 1), by simpa using e, by positivity, fun t ht => ?_⟩
  rw [lt_div_iff₀ hc] at ht
  obtain ⟨w, e1, e2⟩ := h1 (t * c) (by rw [abs_mul]; nlinarith [abs_nonneg t])
  refine ⟨w, by rw [zero_add]; exact e1, ?_⟩
  calc |w - v - d * c * t| = |w - v - d * (t * c)| := by ring_nf
    _ ≤ C * (t * c) ^ 2 := e2
    _ = C * c ^ 2 * t ^ 2 := by ring

/-- The same where the line is given differently. -/
theorem SlopeAt.path {f : Rat → M Rat} {a d : Rat} (h : SlopeAt f a d) (c : Rat) {p : Rat → Rat} (hp : ∀ t, p t = a + t * c) : SlopeAt (fun t => f (p t)) 0 (d * c) := by
  rw [show (fun t => f (p t)) = fun t => f (a + t * c) from funext fun t => by rw [hp]]
  exact h.line c

theorem slope_linear (a c : Rat) : SlopeAt (fun t => .ok (a + t * c)) 0 c := ⟨a, 0, 1, by simp, by norm_num, fun t _ => ⟨_, rfl, by
  rw [show a + (0 + t) * c - a - c * t = 0 by ring]; simp⟩⟩

theorem SlopeAt.as {f : Rat → M Rat} {x d d' : Rat} (h : SlopeAt f x d) (e : d = d') : SlopeAt f x d' := e ▸ h

/-- Sums. -/
theorem SlopeAt.add {f g : Rat → M Rat} {x d e : Rat} (hf : SlopeAt f x d) (hg : SlopeAt g x e) : SlopeAt (fun y => f y >>= fun a => g y >>= fun b => .ok (a + b)) x (d + e) := by
  obtain ⟨v, C, δ, e1, h0, h1⟩ := hf
  obtain ⟨w, D, ε, e2, k0, k1⟩ := hg
  refine ⟨v + w, C + D, min δ ε, by simp only [e1, e2, bind_ok], lt_min h0 k0, fun t ht => ?_⟩
  obtain ⟨a, b⟩ := lt_min_iff.1 ht
  obtain ⟨p, p1, p2⟩ := h1 t a
  obtain ⟨q, q1, q2⟩ := k1 t b
  refine ⟨p + q, by simp only [p1, q1, bind_ok], ?_⟩
  calc |p + q - (v + w) - (d + e) * t| = |(p - v - d * t) + (q - w - e * t)| := by ring_nf
    _ ≤ |p - v - d * t| + |q - w - e * t| := abs_add_le _ _
    _ ≤ (C + D) * t ^ 2 := by linarith

/-- Multiples. -/
theorem SlopeAt.smul {f : Rat → M Rat} {x d : Rat} (hf : SlopeAt f x d) (c : Rat) : SlopeAt (fun y => f y >>= fun a => .ok (c * a)) x (c * d) := by
  obtain ⟨v, C, δ, e1, h0, h1⟩ := hf
  refine ⟨c * v, |c| * C, δ, by simp only [e1, bind_ok], h0, fun t ht => ?_⟩
  obtain ⟨p, p1, p2⟩ := h1 t ht
  refine ⟨c * p, by simp only [p1, bind_ok], ?_⟩
  calc |c * p - c * v - c * d * t| = |c * (p - v - d * t)| := by ring_nf
    _ = |c| * |p - v - d * t| := abs_mul _ _
    _ ≤ |c| * (C * t ^ 2) := mul_le_mul_of_nonneg_left p2 (abs_nonneg c)
    _ = |c| * C * t ^ 2 := by ring

/-- A function with a slope is defined nearby. -/
theorem SlopeAt.defined {f : Rat → M Rat} {x d : Rat} (h : SlopeAt f x d) : ∃ δ, 0 < δ ∧ ∀ t, |t| < δ → ∃ w, f (x + t) = .ok w := by
  obtain ⟨v, C, δ, e1, h0, h1⟩ := h
  exact ⟨δ, h0, fun t ht => by obtain ⟨w, hw, _⟩ := h1 t ht; exact ⟨w, hw⟩⟩

/-- Computations before, whose results are not used. -/
theorem SlopeAt.after {f g : Rat → M Rat} {x d e : Rat} (hg : SlopeAt g x e) (hf : SlopeAt f x d) : SlopeAt (fun y => g y >>= fun _ => f y) x d := by
  obtain ⟨δ, h0, h1⟩ := hg.defined
  refine hf.congr h0 (fun t ht => ?_)
  obtain ⟨w, hw⟩ := h1 t ht
  rw [hw, bind_ok]

end Opm.Rock

namespace Opm.SatFunc
open Opm Opm.Interp Opm.Pvt Opm.Blackoil Opm.Rock

theorem mkTab_ok {xs ys : List Rat} (h : SatTable xs ys) : mkTab none xs ys = .ok (.nonuniform ⟨xs, ys, [], []⟩) := by
  unfold mkTab NTable.new
  dsimp only
  rw [check_ok (nondecreasing_of_lt h.inc), bind_ok, bind_ok]

theorem mkTab_eq {xs ys : List Rat} {t : Tab} (h : mkTab none xs ys = .ok t) : t = .nonuniform ⟨xs, ys, [], []⟩ := by
  unfold mkTab NTable.new at h
  dsimp only at h
  obtain ⟨a, ha, h⟩ := bind_eq_ok.1 h
  obtain ⟨b, hb, ha⟩ := bind_eq_ok.1 ha
  cases ha
  cases h
  rfl

/-- Tables as in the deck are smooth except at their nodes. -/
theorem smooth_nonuniform {xs ys : List Rat} (h : SatTable xs ys) {t : Tab} (ht : mkTab none xs ys = .ok t) {x : Rat} (hx : x ∉ xs) : Smooth t x := by
  rw [mkTab_eq ht]
  exact interp_slope h.inc h.two h.len hx

/-- Tables of equal spacing are smooth except at their nodes. -/
theorem smooth_uniform {s : Sampling} {n : Int} {xs ys : List Rat} {t : Tab} (ht : mkTab (some (s, n)) xs ys = .ok t) : ∃ u : UTable, t = .uniform u ∧ ∀ x, (∀ k, k < u.ys.length → x ≠ u.node k) → Smooth t x := by
  unfold mkTab at ht
  dsimp only at ht
  obtain ⟨u, hu, ht⟩ := bind_eq_ok.1 ht
  cases ht
  have hp : u.Proper := by
    unfold UniformMonotone.build at hu
    obtain ⟨s, _, hu⟩ := bind_eq_ok.1 hu
    split at hu
    · cases hu
    obtain ⟨a, _, hu⟩ := bind_eq_ok.1 hu
    obtain ⟨b, _, hu⟩ := bind_eq_ok.1 hu
    obtain ⟨r, _, hu⟩ := bind_eq_ok.1 hu
    exact (uniform_new_proper hu).1
  exact ⟨u, rfl, fun x hx => uniform_slope hp hx⟩

end Opm.SatFunc
