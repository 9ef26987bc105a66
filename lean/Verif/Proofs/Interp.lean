import Verif.Model.Interp
import Verif.Proofs.Loops
import Mathlib.Tactic.Linarith
import Mathlib.Tactic.FieldSimp
import Mathlib.Tactic.Ring
import Mathlib.Tactic.ByContra
import Mathlib.Data.Rat.Floor
/-! # Proofs about interpolation tables -/

namespace Opm.Interp
open Opm

/-- `s = 1`: strictly increasing, `s = -1`: strictly decreasing. -/
structure Dir (s : Rat) (t : List Rat) : Prop where
  sgn : s = 1 ∨ s = -1
  mono : ∀ (i j : Nat) a b, i < j → t[i]? = some a → t[j]? = some b → s * a < s * b

/-- `x` is in interval `i` of the table, the first and last intervals being unbounded. -/
def InExt (s : Rat) (t : List Rat) (i : Nat) (x : Rat) : Prop :=
  (∀ a, 0 < i → t[i]? = some a → s * a ≤ s * x) ∧
  (∀ b, i + 2 < t.length → t[i + 1]? = some b → s * x ≤ s * b)

theorem tableIndexGo_ok {s : Rat} {t : List Rat} {x : Rat} (hd : Dir s t) (fuel jl ju : Nat) (hf : ju - jl < fuel)
    (hlu : jl < ju) (hu : ju < t.length)
    (hlo : ∀ a, 0 < jl → t[jl]? = some a → s * a ≤ s * x)
    (hhi : ∀ b, ju + 1 < t.length → t[ju]? = some b → s * x ≤ s * b) :
    ∃ r, tableIndexGo t x (decide (s = 1)) fuel jl ju = .ok r ∧ r + 1 < t.length ∧ InExt s t r x := by
  induction fuel generalizing jl ju with
  | zero => omega
  | succ fuel ih =>
    unfold tableIndexGo
    by_cases h : ju - jl > 1
    · rw [if_pos h]
      simp only
      have hm : (ju + jl) / 2 < t.length := by omega
      rw [rd_of_getElem? (List.getElem?_eq_getElem hm), bind_ok]
      by_cases hc : (decide (x ≥ t[(ju + jl) / 2]) == decide (s = 1)) = true
      · rw [if_pos hc]
        refine ih _ _ (by omega) (by omega) hu (fun a _ ha => ?_) hhi
        rw [List.getElem?_eq_getElem hm] at ha
        cases ha
        rcases hd.sgn with rfl | rfl
        · simp at hc; linarith
        · rw [show (decide ((-1 : Rat) = 1)) = false by decide] at hc
          simp at hc; linarith
      · rw [if_neg hc]
        refine ih _ _ (by omega) (by omega) (by omega) hlo (fun b _ hb => ?_)
        rw [List.getElem?_eq_getElem hm] at hb
        cases hb
        rcases hd.sgn with rfl | rfl
        · simp at hc; linarith
        · rw [show (decide ((-1 : Rat) = 1)) = false by decide] at hc
          simp at hc; linarith
    · rw [if_neg h]
      obtain rfl : ju = jl + 1 := by omega
      exact ⟨jl, rfl, hu, hlo, fun b h1 h2 => hhi b (by omega) h2⟩

theorem tableIndex_ok {s : Rat} {t : List Rat} (hd : Dir s t) (hlen : 2 ≤ t.length) (x : Rat) :
    ∃ r, tableIndex t x = .ok r ∧ r + 1 < t.length ∧ InExt s t r x := by
  unfold tableIndex
  simp only
  by_cases h : (t.length : Int) - 1 < 2
  · rw [if_pos h]
    exact ⟨0, rfl, by omega, fun a h0 => by omega, fun b h1 => by omega⟩
  · rw [if_neg h]
    have hn : ((t.length : Int) - 1).toNat = t.length - 1 := by omega
    have hl : t.length - 1 < t.length := by omega
    have h0 : 0 < t.length := by omega
    rw [hn, rd_of_getElem? (List.getElem?_eq_getElem hl), bind_ok, rd_of_getElem? (List.getElem?_eq_getElem h0), bind_ok]
    have hasc : decide (t[t.length - 1] > t[0]) = decide (s = 1) := by
      have := hd.mono 0 (t.length - 1) _ _ (by omega) (List.getElem?_eq_getElem h0) (List.getElem?_eq_getElem hl)
      rcases hd.sgn with rfl | rfl
      · simp only [one_mul] at this
        simp [this]
      · have h2 : ¬ t[t.length - 1] > t[0] := by linarith
        have h3 : ¬ (-1 : Rat) = 1 := by decide
        simp only [h2, h3]
    rw [hasc]
    exact tableIndexGo_ok hd _ _ _ (by omega) (by omega) hl (fun a h => by omega) (fun b h1 => by omega)

/-- The straight line through two points. -/
def line (x1 y1 x2 y2 x : Rat) : Rat := (y2 - y1) / (x2 - x1) * (x - x1) + y1

theorem line_left (x1 y1 x2 y2 : Rat) : line x1 y1 x2 y2 x1 = y1 := by simp [line]

theorem line_right {x1 y1 x2 y2 : Rat} (h : x1 ≠ x2) : line x1 y1 x2 y2 x2 = y2 := by
  have : x2 - x1 ≠ 0 := sub_ne_zero.2 (Ne.symm h)
  unfold line; field_simp; ring

theorem line_swap {x1 y1 x2 y2 : Rat} (h : x1 ≠ x2) (x : Rat) : line x2 y2 x1 y1 x = line x1 y1 x2 y2 x := by
  have h1 : x2 - x1 ≠ 0 := sub_ne_zero.2 (Ne.symm h)
  have h2 : x1 - x2 ≠ 0 := sub_ne_zero.2 h
  unfold line
  have e : (y1 - y2) / (x1 - x2) = (y2 - y1) / (x2 - x1) := by
    rw [div_eq_div_iff h2 h1]; ring
  rw [e]
  field_simp
  ring

theorem line_inv {x1 y1 x2 y2 : Rat} (h : x1 ≠ x2) (hy : y1 ≠ y2) (x : Rat) :
    line y1 x1 y2 x2 (line x1 y1 x2 y2 x) = x := by
  have h1 : x2 - x1 ≠ 0 := sub_ne_zero.2 (Ne.symm h)
  have h2 : y2 - y1 ≠ 0 := sub_ne_zero.2 (Ne.symm hy)
  unfold line
  field_simp
  ring

theorem line_sub {x1 y1 x2 y2 : Rat} (x : Rat) : line x1 y1 x2 y2 x - y1 = (y2 - y1) / (x2 - x1) * (x - x1) := by
  simp [line]

theorem dir_ne {s : Rat} {t : List Rat} (hd : Dir s t) {i j : Nat} {a b : Rat} (hij : i < j) (ha : t[i]? = some a)
    (hb : t[j]? = some b) : a ≠ b := by
  rintro rfl
  exact lt_irrefl _ (hd.mono i j _ _ hij ha hb)

theorem dir_le {s : Rat} {t : List Rat} (hd : Dir s t) {i j : Nat} {a b : Rat} (hij : i ≤ j) (ha : t[i]? = some a)
    (hb : t[j]? = some b) : s * a ≤ s * b := by
  rcases Nat.eq_or_lt_of_le hij with rfl | h
  · rw [ha] at hb; cases hb; exact le_refl _
  · exact le_of_lt (hd.mono i j _ _ h ha hb)

theorem dir_cancel {s : Rat} {t : List Rat} (hd : Dir s t) {a b : Rat} (h : s * a = s * b) : a = b := by
  rcases hd.sgn with rfl | rfl <;> linarith

theorem dir_lt {s : Rat} {t : List Rat} (hd : Dir s t) {i j : Nat} {a b : Rat} (ha : t[i]? = some a)
    (hb : t[j]? = some b) (h : s * a < s * b) : i < j := by
  by_contra hc
  have := dir_le hd (Nat.not_lt.1 hc) hb ha
  linarith

theorem interp_at {xv yv : List Rat} {x : Rat} {r : Nat} {x1 x2 y1 y2 : Rat} (hr : tableIndex xv x = .ok r)
    (hx1 : xv[r]? = some x1) (hx2 : xv[r + 1]? = some x2) (hy1 : yv[r]? = some y1) (hy2 : yv[r + 1]? = some y2) (hne : x1 ≠ x2) :
    linearInterpolation xv yv x = .ok (line x1 y1 x2 y2 x) := by
  unfold linearInterpolation
  rw [hr, bind_ok]
  simp only
  rw [rd_of_getElem? hy2, bind_ok, rd_of_getElem? hy1, bind_ok, rd_of_getElem? hx2, bind_ok, rd_of_getElem? hx1, bind_ok,
    fdiv_ok (sub_ne_zero.2 (Ne.symm hne)), bind_ok]
  rfl

/-- Whatever (extended) interval `i` contains `x`, the interpolation is the line of that interval. -/
theorem interp_on {s : Rat} {xv yv : List Rat} (hd : Dir s xv) (hlen : xv.length ≤ yv.length) {x : Rat} {i : Nat}
    (hi : i + 1 < xv.length) (hx : InExt s xv i x) {x1 x2 y1 y2 : Rat} (hx1 : xv[i]? = some x1) (hx2 : xv[i + 1]? = some x2)
    (hy1 : yv[i]? = some y1) (hy2 : yv[i + 1]? = some y2) :
    linearInterpolation xv yv x = .ok (line x1 y1 x2 y2 x) := by
  obtain ⟨r, hr, hr1, hin⟩ := tableIndex_ok hd (by omega) x
  have gx := List.getElem?_eq_getElem (l := xv) (i := r) (by omega)
  have gx' := List.getElem?_eq_getElem hr1
  have gy := List.getElem?_eq_getElem (l := yv) (i := r) (by omega)
  have gy' := List.getElem?_eq_getElem (l := yv) (i := r + 1) (by omega)
  rw [interp_at hr gx gx' gy gy' (dir_ne hd (Nat.lt_succ_self r) gx gx')]
  congr 1
  rcases Nat.lt_trichotomy r i with h | h | h
  · have e1 := hin.2 _ (by omega) gx'
    have e2 := hx.1 _ (by omega) hx1
    have e3 := dir_le hd (by omega : r + 1 ≤ i) gx' hx1
    have e4 : xv[r + 1] = x := dir_cancel hd (by linarith)
    have e5 : x1 = x := dir_cancel hd (by linarith)
    have hri : r + 1 = i := by
      by_contra hne
      exact dir_ne hd (by omega : r + 1 < i) gx' hx1 (by rw [e4, e5])
    subst hri
    have ey : yv[r + 1] = y1 := by rw [gy'] at hy1; exact Option.some.inj hy1
    have hne := dir_ne hd (Nat.lt_succ_self r) gx gx'
    have l1 := line_right (y1 := yv[r]) (y2 := yv[r + 1]) hne
    have l2 := line_left x1 y1 x2 y2
    rw [e4] at l1 ⊢
    rw [l1, ey]
    rw [e5] at l2 ⊢
    rw [l2]
  · subst h
    rw [gx] at hx1; rw [gx'] at hx2; rw [gy] at hy1; rw [gy'] at hy2
    cases hx1; cases hx2; cases hy1; cases hy2
    rfl
  · have e1 := hx.2 _ (by omega) hx2
    have e2 := hin.1 _ (by omega) gx
    have e3 := dir_le hd (by omega : i + 1 ≤ r) hx2 gx
    have e4 : xv[r] = x := dir_cancel hd (by linarith)
    have e5 : x2 = x := dir_cancel hd (by linarith)
    have hri : i + 1 = r := by
      by_contra hne
      exact dir_ne hd (by omega : i + 1 < r) hx2 gx (by rw [e4, e5])
    subst hri
    have ey : yv[i + 1] = y2 := by rw [gy] at hy2; exact Option.some.inj hy2
    have hne := dir_ne hd (Nat.lt_succ_self i) hx1 hx2
    have l1 := line_right (y1 := y1) (y2 := y2) hne
    have l2 := line_left xv[i + 1] yv[i + 1] xv[i + 1 + 1] yv[i + 1 + 1]
    rw [e4] at l2 ⊢
    rw [l2, ey]
    rw [e5] at l1 ⊢
    rw [l1]

/-- Some extended interval contains `x`. -/
theorem exists_ext {s : Rat} {t : List Rat} (hd : Dir s t) (hlen : 2 ≤ t.length) (x : Rat) :
    ∃ i, i + 1 < t.length ∧ InExt s t i x := by
  obtain ⟨r, _, h1, h2⟩ := tableIndex_ok hd hlen x
  exact ⟨r, h1, h2⟩

end Opm.Interp

namespace Opm.Interp
open Opm

theorem dir_of_lt {t : List Rat} (h : t.Pairwise (· < ·)) : Dir 1 t where
  sgn := .inl rfl
  mono := by
    intro i j a b hij ha hb
    rw [List.pairwise_iff_getElem] at h
    obtain ⟨h1, rfl⟩ := List.getElem?_eq_some_iff.1 ha
    obtain ⟨h2, rfl⟩ := List.getElem?_eq_some_iff.1 hb
    have := h i j h1 h2 hij
    linarith

theorem dir_of_gt {t : List Rat} (h : t.Pairwise (· > ·)) : Dir (-1) t where
  sgn := .inr rfl
  mono := by
    intro i j a b hij ha hb
    rw [List.pairwise_iff_getElem] at h
    obtain ⟨h1, rfl⟩ := List.getElem?_eq_some_iff.1 ha
    obtain ⟨h2, rfl⟩ := List.getElem?_eq_some_iff.1 hb
    have := h i j h1 h2 hij
    linarith

theorem exists_dir {t : List Rat} (h : t.Pairwise (· < ·) ∨ t.Pairwise (· > ·)) : ∃ s, Dir s t := by
  rcases h with h | h
  · exact ⟨1, dir_of_lt h⟩
  · exact ⟨-1, dir_of_gt h⟩

theorem pairwise_of_dir_one {t : List Rat} (h : Dir 1 t) : t.Pairwise (· < ·) := by
  rw [List.pairwise_iff_getElem]
  intro i j hi hj hij
  have := h.mono i j _ _ hij (List.getElem?_eq_getElem hi) (List.getElem?_eq_getElem hj)
  linarith

/-- The line of interval `i` of the table. -/
theorem deriv_on {s : Rat} {xv yv : List Rat} (hd : Dir s xv) (hlen : xv.length ≤ yv.length) (h2 : 2 ≤ xv.length) (x : Rat) :
    ∃ i x1 x2 y1 y2, i + 1 < xv.length ∧ InExt s xv i x ∧ xv[i]? = some x1 ∧ xv[i + 1]? = some x2 ∧
      yv[i]? = some y1 ∧ yv[i + 1]? = some y2 ∧ x1 ≠ x2 ∧
      linearInterpolation xv yv x = .ok (line x1 y1 x2 y2 x) ∧
      linearInterpolationDerivative xv yv x = .ok ((y2 - y1) / (x2 - x1)) := by
  obtain ⟨r, hr, hr1, hin⟩ := tableIndex_ok hd h2 x
  have gx := List.getElem?_eq_getElem (l := xv) (i := r) (by omega)
  have gx' := List.getElem?_eq_getElem hr1
  have gy := List.getElem?_eq_getElem (l := yv) (i := r) (by omega)
  have gy' := List.getElem?_eq_getElem (l := yv) (i := r + 1) (by omega)
  have hne := dir_ne hd (Nat.lt_succ_self r) gx gx'
  refine ⟨r, _, _, _, _, hr1, hin, gx, gx', gy, gy', hne, interp_at hr gx gx' gy gy' hne, ?_⟩
  unfold linearInterpolationDerivative
  rw [hr, bind_ok]
  simp only
  rw [rd_of_getElem? gy', bind_ok, rd_of_getElem? gy, bind_ok, rd_of_getElem? gx', bind_ok, rd_of_getElem? gx, bind_ok,
    fdiv_ok (sub_ne_zero.2 (Ne.symm hne))]

/-- A line through points with `σ`-monotone ordinates is monotone. -/
theorem line_mono {s σ x1 x2 y1 y2 : Rat} (hs : s = 1 ∨ s = -1) (hx : s * x1 < s * x2) (hy : σ * y1 ≤ σ * y2) {a b : Rat}
    (hab : s * a ≤ s * b) : σ * line x1 y1 x2 y2 a ≤ σ * line x1 y1 x2 y2 b := by
  have key : σ * line x1 y1 x2 y2 b - σ * line x1 y1 x2 y2 a = (σ * y2 - σ * y1) / (s * x2 - s * x1) * (s * b - s * a) := by
    have h1 : x2 - x1 ≠ 0 := by
      intro h
      have : x1 = x2 := by linarith
      rw [this] at hx; exact lt_irrefl _ hx
    have h0 : s ≠ 0 := by rcases hs with rfl | rfl <;> decide
    have h2 : s * x2 - s * x1 = s * (x2 - x1) := by ring
    rw [h2]
    unfold line
    field_simp
    ring
  have : 0 ≤ (σ * y2 - σ * y1) / (s * x2 - s * x1) * (s * b - s * a) :=
    mul_nonneg (div_nonneg (by linarith) (by linarith)) (by linarith)
  linarith

/-- Interpolation of `σ`-monotone data is monotone. -/
theorem interp_mono {s σ : Rat} {xv yv : List Rat} (hd : Dir s xv) (hlen : xv.length ≤ yv.length) (h2 : 2 ≤ xv.length)
    (hy : ∀ (i j : Nat) a b, i ≤ j → yv[i]? = some a → yv[j]? = some b → σ * a ≤ σ * b) {a b va vb : Rat}
    (hab : s * a ≤ s * b) (ha : linearInterpolation xv yv a = .ok va) (hb : linearInterpolation xv yv b = .ok vb) :
    σ * va ≤ σ * vb := by
  obtain ⟨i, x1, x2, y1, y2, hi, hin, gx1, gx2, gy1, gy2, hne, e, _⟩ := deriv_on hd hlen h2 a
  obtain ⟨j, x1', x2', y1', y2', hj, hin', gx1', gx2', gy1', gy2', hne', e', _⟩ := deriv_on hd hlen h2 b
  rw [ha] at e; rw [hb] at e'
  cases e; cases e'
  have hx := hd.mono i (i + 1) _ _ (by omega) gx1 gx2
  have hx' := hd.mono j (j + 1) _ _ (by omega) gx1' gx2'
  have hyi := hy i (i + 1) _ _ (by omega) gy1 gy2
  have hyj := hy j (j + 1) _ _ (by omega) gy1' gy2'
  rcases Nat.lt_trichotomy i j with h | h | h
  · have a1 := line_mono hd.sgn hx hyi (hin.2 _ (by omega) gx2)
    rw [line_right hne] at a1
    have a2 := line_mono hd.sgn hx' hyj (hin'.1 _ (by omega) gx1')
    rw [line_left] at a2
    have a3 := hy (i + 1) j _ _ (by omega) gy2 gy1'
    linarith
  · subst h
    rw [gx1] at gx1'; rw [gx2] at gx2'; rw [gy1] at gy1'; rw [gy2] at gy2'
    cases gx1'; cases gx2'; cases gy1'; cases gy2'
    exact line_mono hd.sgn hx hyi hab
  · have b1 := hin'.2 _ (by omega) gx2'
    have b2 := hin.1 _ (by omega) gx1
    have b3 := dir_le hd (by omega : j + 1 ≤ i) gx2' gx1
    have e1 : a = b := dir_cancel hd (by linarith)
    subst e1
    rw [ha] at hb
    rw [Except.ok.inj hb]

end Opm.Interp
