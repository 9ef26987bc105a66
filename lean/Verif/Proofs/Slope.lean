import Verif.Props.RockCompressibility
import Verif.Props.UniformTable
import Mathlib.Tactic.Positivity
/-!
# Slopes of composed functions
-/

namespace Opm.Rock
open Opm Opm.Interp

/-- Functions which agree near a point have the same slopes. -/
theorem SlopeAt.congr {f g : Rat → M Rat} {x d δ : Rat} (h : SlopeAt f x d) (hδ : 0 < δ) (he : ∀ t, |t| < δ → g (x + t) = f (x + t)) : SlopeAt g x d := by
  obtain ⟨v, C, ε, e, h0, h1⟩ := h
  refine ⟨v, C, min δ ε, ?_, lt_min hδ h0, fun t ht => ?_⟩
  · have := he 0 (by simpa using hδ)
    rw [add_zero] at this
    rw [this, e]
  · obtain ⟨a, b⟩ := lt_min_iff.1 ht
    rw [he t a]
    exact h1 t b

/-- Constants have slope 0. -/
theorem slope_const (c x : Rat) : SlopeAt (fun _ => .ok c) x 0 := ⟨c, 0, 1, rfl, by norm_num, fun t _ => ⟨c, rfl, by simp⟩⟩

/-- The constants of a slope can be chosen conveniently. -/
theorem SlopeAt.bounds {f : Rat → M Rat} {x d v : Rat} (h : SlopeAt f x d) (hv : f x = .ok v) :
    ∃ C δ, 0 ≤ C ∧ 0 < δ ∧ δ ≤ 1 ∧ ∀ t, |t| < δ → ∃ r, f (x + t) = .ok (v + d * t + r) ∧ |r| ≤ C * t ^ 2 := by
  obtain ⟨v', C, δ, e, h0, h1⟩ := h
  rw [hv] at e
  cases e
  refine ⟨|C|, min δ 1, abs_nonneg _, lt_min h0 (by norm_num), min_le_right _ _, fun t ht => ?_⟩
  obtain ⟨w, e, hw⟩ := h1 t (lt_of_lt_of_le ht (min_le_left _ _))
  refine ⟨w - v - d * t, by rw [e]; congr 1; ring, le_trans hw ?_⟩
  exact mul_le_mul_of_nonneg_right (le_abs_self _) (by positivity)

theorem SlopeAt.value {f : Rat → M Rat} {x d : Rat} (h : SlopeAt f x d) : ∃ v, f x = .ok v := by
  obtain ⟨v, _, _, e, _⟩ := h
  exact ⟨v, e⟩

/-- A function with a slope is continuous. -/
theorem SlopeAt.near {f : Rat → M Rat} {x d v ε : Rat} (h : SlopeAt f x d) (hv : f x = .ok v) (hε : 0 < ε) :
    ∃ δ, 0 < δ ∧ ∀ t, |t| < δ → ∃ w, f (x + t) = .ok w ∧ |w - v| < ε := by
  obtain ⟨C, δ, hC, h0, h1, h2⟩ := h.bounds hv
  have hK : 0 < |d| + C + 1 := by have := abs_nonneg d; linarith
  refine ⟨min δ (ε / (|d| + C + 1)), lt_min h0 (by positivity), fun t ht => ?_⟩
  obtain ⟨a, b⟩ := lt_min_iff.1 ht
  obtain ⟨r, e, hr⟩ := h2 t a
  refine ⟨_, e, ?_⟩
  rw [lt_div_iff₀ hK] at b
  have t1 : |t| ≤ 1 := by linarith
  have t0 := abs_nonneg t
  have : t ^ 2 ≤ |t| := by rw [← sq_abs]; nlinarith
  have k1 : |v + d * t + r - v| ≤ |d| * |t| + |r| := by
    rw [show v + d * t + r - v = d * t + r by ring]
    exact le_trans (abs_add_le _ _) (by rw [abs_mul])
  nlinarith

/-- Slope of `1 / f`. -/
theorem SlopeAt.recip {f : Rat → M Rat} {x d v : Rat} (h : SlopeAt f x d) (hv : f x = .ok v) (hne : v ≠ 0) :
    SlopeAt (fun y => f y >>= fdiv 1) x (-(1 / v) * (1 / v) * d) := by
  have hpos : 0 < |v| := abs_pos.2 hne
  obtain ⟨C, δ, hC, h0, h1, h2⟩ := h.bounds hv
  obtain ⟨η, g0, g1⟩ := h.near hv (ε := |v| / 2) (by linarith)
  refine ⟨1 / v, (|v| * C + d ^ 2 + |d| * C) / (v ^ 2 * (|v| / 2)), min δ η, ?_, lt_min h0 g0, fun t ht => ?_⟩
  · show (f x >>= fdiv 1) = _
    rw [hv, bind_ok, fdiv_ok hne]
  obtain ⟨a, b⟩ := lt_min_iff.1 ht
  obtain ⟨r, e, hr⟩ := h2 t a
  obtain ⟨w, e', hw⟩ := g1 t b
  rw [e] at e'
  have hw' : v + d * t + r = w := Except.ok.inj e'
  have hwabs : |v| / 2 ≤ |w| := by
    have : |v| ≤ |w - v| + |w| := by
      have := abs_sub_abs_le_abs_sub v w
      rw [abs_sub_comm] at this
      linarith
    linarith
  have hw0 : w ≠ 0 := by
    intro h
    rw [h, abs_zero] at hwabs
    linarith
  refine ⟨1 / w, by show (f (x + t) >>= fdiv 1) = _; rw [e, hw', bind_ok, fdiv_ok hw0], ?_⟩
  have hid : 1 / w - 1 / v - (-(1 / v) * (1 / v) * d) * t = (-v * r + d ^ 2 * t ^ 2 + d * t * r) / (v ^ 2 * w) := by
    have : r = w - v - d * t := by linarith
    rw [this]
    field_simp
    ring
  rw [hid, abs_div, abs_mul, abs_of_nonneg (sq_nonneg v), div_mul_eq_mul_div]
  have hv2 : 0 < v ^ 2 := by positivity
  have num : |-v * r + d ^ 2 * t ^ 2 + d * t * r| ≤ (|v| * C + d ^ 2 + |d| * C) * t ^ 2 := by
    have t1 : |t| ≤ 1 := by linarith
    have k1 : |-v * r| ≤ |v| * (C * t ^ 2) := by
      rw [abs_mul, abs_neg]
      exact mul_le_mul_of_nonneg_left hr (abs_nonneg _)
    have k2 : |d ^ 2 * t ^ 2| = d ^ 2 * t ^ 2 := abs_of_nonneg (by positivity)
    have k3 : |d * t * r| ≤ |d| * (C * t ^ 2) := by
      rw [abs_mul, abs_mul, mul_assoc]
      apply mul_le_mul_of_nonneg_left _ (abs_nonneg _)
      calc |t| * |r| ≤ 1 * |r| := mul_le_mul_of_nonneg_right t1 (abs_nonneg _)
        _ ≤ C * t ^ 2 := by linarith
    have k4 := abs_add_le (-v * r + d ^ 2 * t ^ 2) (d * t * r)
    have k5 := abs_add_le (-v * r) (d ^ 2 * t ^ 2)
    nlinarith
  have den : v ^ 2 * (|v| / 2) ≤ v ^ 2 * |w| := mul_le_mul_of_nonneg_left hwabs hv2.le
  have den0 : 0 < v ^ 2 * (|v| / 2) := by positivity
  exact div_le_div₀ (le_trans (abs_nonneg _) num) num den0 den

/-- Slope of a product. -/
theorem SlopeAt.mul {f g : Rat → M Rat} {x d e v w : Rat} (hf : SlopeAt f x d) (hg : SlopeAt g x e) (hv : f x = .ok v) (hw : g x = .ok w) :
    SlopeAt (fun y => do let a ← f y; let b ← g y; .ok (a * b)) x (d * w + v * e) := by
  obtain ⟨C, δ, hC, h0, h1, h2⟩ := hf.bounds hv
  obtain ⟨D, η, hD, g0, g1, g2⟩ := hg.bounds hw
  refine ⟨v * w, |v| * D + |d * e| + |d| * D + C * |w| + C * |e| + C * D, min δ η, ?_, lt_min h0 g0, fun t ht => ?_⟩
  · show (f x >>= fun a => g x >>= fun b => Except.ok (a * b)) = _
    rw [hv, bind_ok, hw, bind_ok]
  obtain ⟨a, b⟩ := lt_min_iff.1 ht
  obtain ⟨r, e1, hr⟩ := h2 t a
  obtain ⟨q, e2, hq⟩ := g2 t b
  refine ⟨(v + d * t + r) * (w + e * t + q), ?_, ?_⟩
  · show (f (x + t) >>= fun a => g (x + t) >>= fun b => Except.ok (a * b)) = _
    rw [e1, bind_ok, e2, bind_ok]
  have t1 : |t| ≤ 1 := by linarith
  have t0 := abs_nonneg t
  have t2 : 0 ≤ t ^ 2 := sq_nonneg t
  have t3 : t ^ 2 ≤ 1 := by rw [← sq_abs]; nlinarith
  rw [show (v + d * t + r) * (w + e * t + q) - v * w - (d * w + v * e) * t = v * q + d * e * t ^ 2 + d * t * q + r * w + r * (e * t) + r * q by ring]
  have k1 : |v * q| ≤ |v| * (D * t ^ 2) := by rw [abs_mul]; exact mul_le_mul_of_nonneg_left hq (abs_nonneg _)
  have k2 : |d * e * t ^ 2| = |d * e| * t ^ 2 := by rw [abs_mul, abs_of_nonneg t2]
  have k3 : |d * t * q| ≤ |d| * (D * t ^ 2) := by
    rw [abs_mul, abs_mul, mul_assoc]
    apply mul_le_mul_of_nonneg_left _ (abs_nonneg _)
    calc |t| * |q| ≤ 1 * |q| := mul_le_mul_of_nonneg_right t1 (abs_nonneg _)
      _ ≤ D * t ^ 2 := by linarith
  have k4 : |r * w| ≤ C * t ^ 2 * |w| := by rw [abs_mul]; exact mul_le_mul_of_nonneg_right hr (abs_nonneg _)
  have k5 : |r * (e * t)| ≤ C * t ^ 2 * |e| := by
    rw [abs_mul, abs_mul]
    calc |r| * (|e| * |t|) ≤ |r| * (|e| * 1) := mul_le_mul_of_nonneg_left (mul_le_mul_of_nonneg_left t1 (abs_nonneg _)) (abs_nonneg _)
      _ = |r| * |e| := by ring
      _ ≤ C * t ^ 2 * |e| := mul_le_mul_of_nonneg_right hr (abs_nonneg _)
  have k6 : |r * q| ≤ C * t ^ 2 * D := by
    rw [abs_mul]
    calc |r| * |q| ≤ (C * t ^ 2) * (D * t ^ 2) := mul_le_mul hr hq (abs_nonneg _) (by positivity)
      _ ≤ (C * t ^ 2) * (D * 1) := mul_le_mul_of_nonneg_left (mul_le_mul_of_nonneg_left t3 hD) (by positivity)
      _ = _ := by ring
  have s1 := abs_add_le (v * q + d * e * t ^ 2 + d * t * q + r * w + r * (e * t)) (r * q)
  have s2 := abs_add_le (v * q + d * e * t ^ 2 + d * t * q + r * w) (r * (e * t))
  have s3 := abs_add_le (v * q + d * e * t ^ 2 + d * t * q) (r * w)
  have s4 := abs_add_le (v * q + d * e * t ^ 2) (d * t * q)
  have s5 := abs_add_le (v * q) (d * e * t ^ 2)
  calc _ ≤ |v| * (D * t ^ 2) + |d * e| * t ^ 2 + |d| * (D * t ^ 2) + C * t ^ 2 * |w| + C * t ^ 2 * |e| + C * t ^ 2 * D := by linarith
    _ = _ := by ring

/-- Slope of a mean. -/
theorem SlopeAt.mean {f g : Rat → M Rat} {x d e : Rat} (c : Rat) (hf : SlopeAt f x d) (hg : SlopeAt g x e) :
    SlopeAt (fun y => do let a ← f y; let b ← g y; .ok (a + c * (b - a))) x (d + c * (e - d)) := by
  obtain ⟨v, hv⟩ := hf.value
  obtain ⟨w, hw⟩ := hg.value
  obtain ⟨C, δ, hC, h0, h1, h2⟩ := hf.bounds hv
  obtain ⟨D, η, hD, g0, g1, g2⟩ := hg.bounds hw
  refine ⟨v + c * (w - v), C * |1 - c| + D * |c|, min δ η, ?_, lt_min h0 g0, fun t ht => ?_⟩
  · show (f x >>= fun a => g x >>= fun b => Except.ok (a + c * (b - a))) = _
    rw [hv, bind_ok, hw, bind_ok]
  obtain ⟨a, b⟩ := lt_min_iff.1 ht
  obtain ⟨r, e1, hr⟩ := h2 t a
  obtain ⟨q, e2, hq⟩ := g2 t b
  refine ⟨(v + d * t + r) + c * ((w + e * t + q) - (v + d * t + r)), ?_, ?_⟩
  · show (f (x + t) >>= fun a => g (x + t) >>= fun b => Except.ok (a + c * (b - a))) = _
    rw [e1, bind_ok, e2, bind_ok]
  rw [show (v + d * t + r) + c * ((w + e * t + q) - (v + d * t + r)) - (v + c * (w - v)) - (d + c * (e - d)) * t = r * (1 - c) + q * c by ring]
  calc _ ≤ |r * (1 - c)| + |q * c| := abs_add_le _ _
    _ = |r| * |1 - c| + |q| * |c| := by rw [abs_mul, abs_mul]
    _ ≤ C * t ^ 2 * |1 - c| + D * t ^ 2 * |c| := add_le_add (mul_le_mul_of_nonneg_right hr (abs_nonneg _)) (mul_le_mul_of_nonneg_right hq (abs_nonneg _))
    _ = _ := by ring

/-- Slope of `f / g`. -/
theorem SlopeAt.quot {f g : Rat → M Rat} {x d e v w : Rat} (hf : SlopeAt f x d) (hg : SlopeAt g x e) (hv : f x = .ok v) (hw : g x = .ok w) (hne : w ≠ 0) :
    SlopeAt (fun y => do let a ← f y; let b ← g y; fdiv a b) x ((d - v / w * e) / w) := by
  have h1 := (hf.mul (hg.recip hw hne) hv (by show (g x >>= fdiv 1) = _; rw [hw, bind_ok, fdiv_ok hne]))
  have he : d * (1 / w) + v * (-(1 / w) * (1 / w) * e) = (d - v / w * e) / w := by field_simp; ring
  rw [he] at h1
  refine h1.congr (δ := 1) (by norm_num) (fun t _ => ?_)
  show (f (x + t) >>= fun a => g (x + t) >>= fun b => fdiv a b) = (f (x + t) >>= fun a => (g (x + t) >>= fdiv 1) >>= fun b => Except.ok (a * b))
  cases f (x + t) with
  | error _ => rfl
  | ok a =>
    rw [bind_ok, bind_ok]
    cases g (x + t) with
    | error _ => rfl
    | ok b =>
      rw [bind_ok, bind_ok]
      unfold fdiv
      split
      · rfl
      · show _ = Except.ok (a * (1 / b))
        congr 1
        ring

/-- Slope of an interpolated table, away from its nodes. -/
theorem interp_slope {xv yv : List Rat} (hm : xv.Pairwise (· < ·)) (h2 : 2 ≤ xv.length) (hlen : yv.length = xv.length) {x : Rat} (hx : x ∉ xv) :
    ∃ d, linearInterpolationDerivative xv yv x = .ok d ∧ SlopeAt (linearInterpolation xv yv) x d := by
  obtain ⟨i, x1, x2, y1, y2, hi, hin, hx1, hx2, hy1, hy2, _, _, ed⟩ := deriv_on (dir_of_lt hm) (by omega) h2 x (yv := yv)
  have lo : 0 < i → x1 < x := fun h0 => lt_of_le_of_ne (by have := hin.1 _ h0 hx1; linarith) (fun e => hx (by rw [← e]; exact List.mem_of_getElem? hx1))
  have hi2 : i + 2 < xv.length → x < x2 := fun h0 => lt_of_le_of_ne (by have := hin.2 _ h0 hx2; linarith) (fun e => hx (by rw [e]; exact List.mem_of_getElem? hx2))
  have hv := interpolation_on_line hm hlen hx1 hx2 hy1 hy2 (fun h0 => (lo h0).le) (fun h0 => (hi2 h0).le)
  refine ⟨_, ed, _, 0, min (if 0 < i then x - x1 else 1) (if i + 2 < xv.length then x2 - x else 1), hv, ?_, ?_⟩
  · refine lt_min ?_ ?_
    · split
      · rename_i h0; have := lo h0; linarith
      · norm_num
    · split
      · rename_i h0; have := hi2 h0; linarith
      · norm_num
  · intro t ht
    obtain ⟨t1, t2⟩ := lt_min_iff.1 ht
    rw [abs_lt] at t1 t2
    refine ⟨_, interpolation_on_line hm hlen hx1 hx2 hy1 hy2 (fun h0 => by rw [if_pos h0] at t1; linarith) (fun h0 => by rw [if_pos h0] at t2; linarith), ?_⟩
    rw [show y1 + (y2 - y1) / (x2 - x1) * (x + t - x1) - (y1 + (y2 - y1) / (x2 - x1) * (x - x1)) - (y2 - y1) / (x2 - x1) * t = 0 by ring]
    simp

/-- Slope of a uniform table, away from its nodes. -/
theorem uniform_slope {t : UTable} (ht : t.Proper) {x : Rat} (hx : ∀ k, k < t.ys.length → x ≠ t.node k) :
    ∃ d, t.derivative x = .ok d ∧ SlopeAt t.eval x d := by
  have h2 := ht.two
  have hdom := ht.dom
  have hn : ((t.ys.length - 1 : Nat) : Rat) ≠ 0 := by
    have : 0 < t.ys.length - 1 := by omega
    exact_mod_cast Nat.pos_iff_ne_zero.1 this
  have hn0 : t.node 0 = t.xmin := by unfold UTable.node; simp
  have hnl : t.node (t.ys.length - 1) = t.xmax := by unfold UTable.node; field_simp; ring
  rcases lt_trichotomy x t.xmin with h | h | h
  · refine ⟨0, (uniform_derivative t ht x).1 (Or.inl h), ?_⟩
    have e0 := List.getElem?_eq_getElem (l := t.ys) (i := 0) (by omega)
    refine (slope_const t.ys[0] x).congr (δ := t.xmin - x) (by linarith) (fun s hs => ?_)
    exact (uniform_outside t ht _).1 (by have := (abs_lt.1 hs).2; linarith) _ e0
  · exact absurd (h.trans hn0.symm) (hx 0 (by omega))
  rcases lt_trichotomy x t.xmax with h' | h' | h'
  · obtain ⟨k, hk, l1, l2⟩ := uniform_covered t ht x
    have hc : t.clamp x = x := by unfold UTable.clamp; rw [if_neg (by linarith), if_neg (by linarith)]
    rw [hc] at l1 l2
    have l1' := lt_of_le_of_ne l1 (hx k (by omega)).symm
    have l2' := lt_of_le_of_ne l2 (hx (k + 1) hk)
    have g0 := List.getElem?_eq_getElem (l := t.ys) (i := k) (by omega)
    have g1 := List.getElem?_eq_getElem (l := t.ys) (i := k + 1) hk
    have hev : ∀ z, t.node k ≤ z → z ≤ t.node (k + 1) → t.xmin < z → z < t.xmax →
        t.eval z = .ok (t.ys[k] + (t.ys[k + 1] - t.ys[k]) / (t.node (k + 1) - t.node k) * (z - t.node k)) := by
      intro z z1 z2 z3 z4
      have hcz : t.clamp z = z := by unfold UTable.clamp; rw [if_neg (by linarith), if_neg (by linarith)]
      obtain ⟨w, v, _, _, ew, ev, e, _⟩ := uniform_eval t ht z k _ _ g0 g1 (by rw [hcz]; exact z1) (by rw [hcz]; exact z2)
      rw [hcz] at ew
      rw [e, ev, ew]
      congr 1
      have : t.node (k + 1) - t.node k ≠ 0 := by linarith
      field_simp
      ring
    refine ⟨_, (uniform_derivative t ht x).2 k _ _ g0 g1 l1 (Or.inl l2'), _, 0, min (min (x - t.node k) (t.node (k + 1) - x)) (min (x - t.xmin) (t.xmax - x)), hev x l1 l2 h h',
      lt_min (lt_min (by linarith) (by linarith)) (lt_min (by linarith) (by linarith)), fun s hs => ?_⟩
    obtain ⟨a, b⟩ := lt_min_iff.1 hs
    obtain ⟨a1, a2⟩ := lt_min_iff.1 a
    obtain ⟨b1, b2⟩ := lt_min_iff.1 b
    rw [abs_lt] at a1 a2 b1 b2
    refine ⟨_, hev _ (by linarith) (by linarith) (by linarith) (by linarith), ?_⟩
    rw [show t.ys[k] + (t.ys[k + 1] - t.ys[k]) / (t.node (k + 1) - t.node k) * (x + s - t.node k) - (t.ys[k] + (t.ys[k + 1] - t.ys[k]) / (t.node (k + 1) - t.node k) * (x - t.node k)) -
      (t.ys[k + 1] - t.ys[k]) / (t.node (k + 1) - t.node k) * s = 0 by ring]
    simp
  · exact absurd (h'.trans hnl.symm) (hx _ (by omega))
  · refine ⟨0, (uniform_derivative t ht x).1 (Or.inr h'), ?_⟩
    have e0 := List.getElem?_eq_getElem (l := t.ys) (i := t.ys.length - 1) (by omega)
    refine (slope_const t.ys[t.ys.length - 1] x).congr (δ := x - t.xmax) (by linarith) (fun s hs => ?_)
    exact (uniform_outside t ht _).2 (by have := (abs_lt.1 hs).1; linarith) _ e0

end Opm.Rock
