import Verif.Proofs.Interp
/-!
# C16, C17: table lookup and linear interpolation

Tables are strictly increasing (`Pairwise (· < ·)`) or strictly decreasing (`Pairwise (· > ·)`).
-/

namespace Opm.Interp
open Opm

/-- **C16, increasing tables.** The index is that of an interval of the table; the interval contains
`x` if the table's range does; left of the table it is the first interval, right of it the last. -/
theorem table_index_increasing (t : List Rat) (hm : t.Pairwise (· < ·)) (hlen : 2 ≤ t.length) (x first last : Rat)
    (hf : t[0]? = some first) (hl : t[t.length - 1]? = some last) :
    ∃ i a b, tableIndex t x = .ok i ∧ t[i]? = some a ∧ t[i + 1]? = some b ∧
      (first ≤ x → x ≤ last → a ≤ x ∧ x ≤ b) ∧ (x < first → i = 0) ∧ (last < x → i + 2 = t.length) := by
  have hd := dir_of_lt hm
  obtain ⟨i, e, hi, h1, h2⟩ := tableIndex_ok hd hlen x
  have ga := List.getElem?_eq_getElem (l := t) (i := i) (by omega)
  have gb := List.getElem?_eq_getElem hi
  refine ⟨i, _, _, e, ga, gb, fun hx1 hx2 => ⟨?_, ?_⟩, fun hx => ?_, fun hx => ?_⟩
  · by_cases h0 : 0 < i
    · have := h1 _ h0 ga; linarith
    · obtain rfl : i = 0 := by omega
      rw [hf] at ga; cases ga; exact hx1
  · by_cases h0 : i + 2 < t.length
    · have := h2 _ h0 gb; linarith
    · obtain h3 : i + 1 = t.length - 1 := by omega
      simp only [h3] at gb ⊢
      rw [hl] at gb; cases gb; exact hx2
  · by_contra h0
    have := h1 _ (by omega) ga
    have := dir_le hd (Nat.zero_le i) hf ga
    linarith
  · by_contra h0
    have := h2 _ (by omega) gb
    have := dir_le hd (by omega : i + 1 ≤ t.length - 1) gb hl
    linarith

/-- **C16, decreasing tables.** -/
theorem table_index_decreasing (t : List Rat) (hm : t.Pairwise (· > ·)) (hlen : 2 ≤ t.length) (x first last : Rat)
    (hf : t[0]? = some first) (hl : t[t.length - 1]? = some last) :
    ∃ i a b, tableIndex t x = .ok i ∧ t[i]? = some a ∧ t[i + 1]? = some b ∧
      (last ≤ x → x ≤ first → b ≤ x ∧ x ≤ a) ∧ (first < x → i = 0) ∧ (x < last → i + 2 = t.length) := by
  have hd := dir_of_gt hm
  obtain ⟨i, e, hi, h1, h2⟩ := tableIndex_ok hd hlen x
  have ga := List.getElem?_eq_getElem (l := t) (i := i) (by omega)
  have gb := List.getElem?_eq_getElem hi
  refine ⟨i, _, _, e, ga, gb, fun hx1 hx2 => ⟨?_, ?_⟩, fun hx => ?_, fun hx => ?_⟩
  · by_cases h0 : i + 2 < t.length
    · have := h2 _ h0 gb; linarith
    · obtain h3 : i + 1 = t.length - 1 := by omega
      simp only [h3] at gb ⊢
      rw [hl] at gb; cases gb; exact hx1
  · by_cases h0 : 0 < i
    · have := h1 _ h0 ga; linarith
    · obtain rfl : i = 0 := by omega
      rw [hf] at ga; cases ga; exact hx2
  · by_contra h0
    have := h1 _ (by omega) ga
    have := dir_le hd (Nat.zero_le i) hf ga
    linarith
  · by_contra h0
    have := h2 _ (by omega) gb
    have := dir_le hd (by omega : i + 1 ≤ t.length - 1) gb hl
    linarith

example : [(0 : Rat), 1, 3, 7].Pairwise (· < ·) ∧ [(5 : Rat), 2, -1].Pairwise (· > ·) ∧ tableIndex [0, 1, 3, 7] 4 = .ok 2 ∧
    tableIndex [5, 2, -1] 0 = .ok 1 ∧ tableIndex [5, 2, -1] 9 = .ok 0 := by decide +kernel

/-- **C17, nodes.** Interpolation reproduces the data. -/
theorem interpolation_reproduces (xv yv : List Rat) (hm : xv.Pairwise (· < ·) ∨ xv.Pairwise (· > ·)) (h2 : 2 ≤ xv.length)
    (hlen : yv.length = xv.length) (i : Nat) (x y : Rat) (hx : xv[i]? = some x) (hy : yv[i]? = some y) :
    linearInterpolation xv yv x = .ok y := by
  obtain ⟨s, hd⟩ := exists_dir hm
  have hi := (List.getElem?_eq_some_iff.1 hx).1
  by_cases h : i + 1 < xv.length
  · have gx := List.getElem?_eq_getElem h
    have gy := List.getElem?_eq_getElem (l := yv) (i := i + 1) (by omega)
    rw [interp_on hd (by omega) h ⟨fun a _ ha => by rw [hx] at ha; cases ha; exact le_refl _,
      fun b _ hb => dir_le hd (Nat.le_succ i) hx hb⟩ hx gx hy gy, line_left]
  · obtain ⟨j, rfl⟩ : ∃ j, i = j + 1 := ⟨i - 1, by omega⟩
    have gx := List.getElem?_eq_getElem (l := xv) (i := j) (by omega)
    have gy := List.getElem?_eq_getElem (l := yv) (i := j) (by omega)
    rw [interp_on hd (by omega) hi ⟨fun a _ ha => dir_le hd (Nat.le_succ j) ha hx,
      fun b _ hb => by rw [hx] at hb; cases hb; exact le_refl _⟩ gx hx gy hy, line_right (dir_ne hd (Nat.lt_succ_self j) gx hx)]

/-- **C17, between nodes.** For `x` in the interval of nodes `i` and `i+1` (in either order) the value is
the weighted mean of the two ordinates, hence between them. -/
theorem interpolation_between (xv yv : List Rat) (hm : xv.Pairwise (· < ·) ∨ xv.Pairwise (· > ·))
    (hlen : yv.length = xv.length) (i : Nat) (x x1 x2 y1 y2 : Rat) (hx1 : xv[i]? = some x1) (hx2 : xv[i + 1]? = some x2)
    (hy1 : yv[i]? = some y1) (hy2 : yv[i + 1]? = some y2) (hlo : min x1 x2 ≤ x) (hhi : x ≤ max x1 x2) :
    ∃ w v, 0 ≤ w ∧ w ≤ 1 ∧ x = (1 - w) * x1 + w * x2 ∧ v = (1 - w) * y1 + w * y2 ∧ linearInterpolation xv yv x = .ok v ∧
      min y1 y2 ≤ v ∧ v ≤ max y1 y2 := by
  obtain ⟨s, hd⟩ := exists_dir hm
  have hi := (List.getElem?_eq_some_iff.1 hx2).1
  have hxx := hd.mono i (i + 1) _ _ (Nat.lt_succ_self i) hx1 hx2
  have hb : s * x1 ≤ s * x ∧ s * x ≤ s * x2 := by
    rcases hd.sgn with rfl | rfl
    · rw [min_eq_left (by linarith)] at hlo; rw [max_eq_right (by linarith)] at hhi
      constructor <;> linarith
    · rw [min_eq_right (by linarith)] at hlo; rw [max_eq_left (by linarith)] at hhi
      constructor <;> linarith
  have hne : x2 - x1 ≠ 0 := sub_ne_zero.2 (Ne.symm (dir_ne hd (Nat.lt_succ_self i) hx1 hx2))
  have e := interp_on hd (by omega) (x := x) hi ⟨fun a _ ha => by rw [hx1] at ha; cases ha; exact hb.1,
    fun b _ hb' => by rw [hx2] at hb'; cases hb'; exact hb.2⟩ hx1 hx2 hy1 hy2
  have hw : (x - x1) / (x2 - x1) = (s * x - s * x1) / (s * x2 - s * x1) := by
    rcases hd.sgn with rfl | rfl
    · simp
    · rw [show (-1 * x - -1 * x1) = -(x - x1) by ring, show (-1 * x2 - -1 * x1) = -(x2 - x1) by ring, neg_div_neg_eq]
  have w0 : 0 ≤ (x - x1) / (x2 - x1) := by rw [hw]; exact div_nonneg (by linarith) (by linarith)
  have w1 : (x - x1) / (x2 - x1) ≤ 1 := by rw [hw, div_le_one (by linarith)]; linarith
  have ev : line x1 y1 x2 y2 x = (1 - (x - x1) / (x2 - x1)) * y1 + (x - x1) / (x2 - x1) * y2 := by
    unfold line; field_simp; ring
  refine ⟨(x - x1) / (x2 - x1), _, w0, w1, by field_simp; ring, ev, e, ?_, ?_⟩
  · rw [ev]
    have := min_le_left y1 y2
    have := min_le_right y1 y2
    nlinarith
  · rw [ev]
    have := le_max_left y1 y2
    have := le_max_right y1 y2
    nlinarith

/-- **C17, outside the table.** Before the first node (on the side of the first node) the value is that of
the line through the first two points; beyond the last node, that of the line through the last two. -/
theorem interpolation_extrapolates (xv yv : List Rat) (hm : xv.Pairwise (· < ·) ∨ xv.Pairwise (· > ·))
    (hlen : yv.length = xv.length) (i : Nat) (x x1 x2 y1 y2 : Rat) (hx1 : xv[i]? = some x1) (hx2 : xv[i + 1]? = some x2)
    (hy1 : yv[i]? = some y1) (hy2 : yv[i + 1]? = some y2)
    (hout : (i = 0 ∧ ((x1 < x2 ∧ x ≤ x1) ∨ (x2 < x1 ∧ x1 ≤ x))) ∨
      (i + 2 = xv.length ∧ ((x1 < x2 ∧ x2 ≤ x) ∨ (x2 < x1 ∧ x ≤ x2)))) :
    linearInterpolation xv yv x = .ok (y1 + (y2 - y1) / (x2 - x1) * (x - x1)) := by
  obtain ⟨s, hd⟩ := exists_dir hm
  have hi := (List.getElem?_eq_some_iff.1 hx2).1
  have hxx := hd.mono i (i + 1) _ _ (Nat.lt_succ_self i) hx1 hx2
  have hex : InExt s xv i x := by
    rcases hout with ⟨h0, h⟩ | ⟨h0, h⟩
    · refine ⟨fun a h1 => by omega, fun b _ hb => ?_⟩
      rw [hx2] at hb; cases hb
      rcases hd.sgn with rfl | rfl <;> rcases h with ⟨h1, h2⟩ | ⟨h1, h2⟩ <;> linarith
    · refine ⟨fun a _ ha => ?_, fun b h1 => by omega⟩
      rw [hx1] at ha; cases ha
      rcases hd.sgn with rfl | rfl <;> rcases h with ⟨h1, h2⟩ | ⟨h1, h2⟩ <;> linarith
  rw [interp_on hd (by omega) hi hex hx1 hx2 hy1 hy2]
  unfold line
  congr 1
  ring

/-- **C17, monotonicity.** Nondecreasing data on an increasing table interpolate to a nondecreasing
function on the whole line; nonincreasing data to a nonincreasing function. -/
theorem interpolation_monotone (xv yv : List Rat) (hm : xv.Pairwise (· < ·)) (h2 : 2 ≤ xv.length) (hlen : yv.length = xv.length)
    (a b va vb : Rat) (hab : a ≤ b) (ha : linearInterpolation xv yv a = .ok va) (hb : linearInterpolation xv yv b = .ok vb) :
    (yv.Pairwise (· ≤ ·) → va ≤ vb) ∧ (yv.Pairwise (· ≥ ·) → vb ≤ va) := by
  have hd := dir_of_lt hm
  constructor
  · intro hy
    have := interp_mono (σ := 1) hd (by omega) h2 (fun i j u w hij hu hw => by
      rcases Nat.eq_or_lt_of_le hij with rfl | h
      · rw [hu] at hw; cases hw; exact le_refl _
      · rw [List.pairwise_iff_getElem] at hy
        obtain ⟨h1, rfl⟩ := List.getElem?_eq_some_iff.1 hu
        obtain ⟨h3, rfl⟩ := List.getElem?_eq_some_iff.1 hw
        have := hy i j h1 h3 h
        linarith) (by linarith : (1 : Rat) * a ≤ 1 * b) ha hb
    linarith
  · intro hy
    have := interp_mono (σ := -1) hd (by omega) h2 (fun i j u w hij hu hw => by
      rcases Nat.eq_or_lt_of_le hij with rfl | h
      · rw [hu] at hw; cases hw; exact le_refl _
      · rw [List.pairwise_iff_getElem] at hy
        obtain ⟨h1, rfl⟩ := List.getElem?_eq_some_iff.1 hu
        obtain ⟨h3, rfl⟩ := List.getElem?_eq_some_iff.1 hw
        have := hy i j h1 h3 h
        linarith) (by linarith : (1 : Rat) * a ≤ 1 * b) ha hb
    linarith

/-- **C17, monotonicity on a decreasing table.** -/
theorem interpolation_monotone_decreasing (xv yv : List Rat) (hm : xv.Pairwise (· > ·)) (h2 : 2 ≤ xv.length) (hlen : yv.length = xv.length)
    (a b va vb : Rat) (hab : a ≤ b) (ha : linearInterpolation xv yv a = .ok va) (hb : linearInterpolation xv yv b = .ok vb) :
    (yv.Pairwise (· ≤ ·) → vb ≤ va) ∧ (yv.Pairwise (· ≥ ·) → va ≤ vb) := by
  have hd := dir_of_gt hm
  constructor
  · intro hy
    have := interp_mono (σ := 1) hd (by omega) h2 (fun i j u w hij hu hw => by
      rcases Nat.eq_or_lt_of_le hij with rfl | h
      · rw [hu] at hw; cases hw; exact le_refl _
      · rw [List.pairwise_iff_getElem] at hy
        obtain ⟨h1, rfl⟩ := List.getElem?_eq_some_iff.1 hu
        obtain ⟨h3, rfl⟩ := List.getElem?_eq_some_iff.1 hw
        have := hy i j h1 h3 h
        linarith) (by linarith : (-1 : Rat) * b ≤ -1 * a) hb ha
    linarith
  · intro hy
    have := interp_mono (σ := -1) hd (by omega) h2 (fun i j u w hij hu hw => by
      rcases Nat.eq_or_lt_of_le hij with rfl | h
      · rw [hu] at hw; cases hw; exact le_refl _
      · rw [List.pairwise_iff_getElem] at hy
        obtain ⟨h1, rfl⟩ := List.getElem?_eq_some_iff.1 hu
        obtain ⟨h3, rfl⟩ := List.getElem?_eq_some_iff.1 hw
        have := hy i j h1 h3 h
        linarith) (by linarith : (-1 : Rat) * b ≤ -1 * a) hb ha
    linarith

/-- **C17, derivative.** Both functions succeed for every `x` and use the same interval: the derivative
is its slope and the value is on its line.  Inside an interval it is that interval. -/
theorem interpolation_derivative (xv yv : List Rat) (hm : xv.Pairwise (· < ·) ∨ xv.Pairwise (· > ·)) (h2 : 2 ≤ xv.length)
    (hlen : yv.length = xv.length) (x : Rat) :
    ∃ i x1 x2 y1 y2, xv[i]? = some x1 ∧ xv[i + 1]? = some x2 ∧ yv[i]? = some y1 ∧ yv[i + 1]? = some y2 ∧
      linearInterpolationDerivative xv yv x = .ok ((y2 - y1) / (x2 - x1)) ∧
      linearInterpolation xv yv x = .ok (y1 + (y2 - y1) / (x2 - x1) * (x - x1)) ∧
      ∀ (j : Nat) z1 z2, xv[j]? = some z1 → xv[j + 1]? = some z2 → min z1 z2 < x → x < max z1 z2 → j = i := by
  obtain ⟨s, hd⟩ := exists_dir hm
  obtain ⟨i, x1, x2, y1, y2, hi, hin, gx1, gx2, gy1, gy2, hne, e, ed⟩ := deriv_on hd (by omega) h2 x (yv := yv)
  refine ⟨i, x1, x2, y1, y2, gx1, gx2, gy1, gy2, ed, ?_, ?_⟩
  · rw [e]; unfold line; congr 1; ring
  · intro j z1 z2 hz1 hz2 hlo hhi
    have hzz := hd.mono j (j + 1) _ _ (Nat.lt_succ_self j) hz1 hz2
    have hb : s * z1 < s * x ∧ s * x < s * z2 := by
      rcases hd.sgn with rfl | rfl
      · rw [min_eq_left (by linarith)] at hlo; rw [max_eq_right (by linarith)] at hhi
        constructor <;> linarith
      · rw [min_eq_right (by linarith)] at hlo; rw [max_eq_left (by linarith)] at hhi
        constructor <;> linarith
    by_contra hne
    rcases Nat.lt_or_gt_of_ne hne with h | h
    · have h1 := hin.1 _ (by omega) gx1
      have h3 := dir_le hd (by omega : j + 1 ≤ i) hz2 gx1
      linarith
    · have h1 := hin.2 _ (by
        have := (List.getElem?_eq_some_iff.1 hz2).1
        omega) gx2
      have h3 := dir_le hd (by omega : i + 1 ≤ j) gx2 hz1
      linarith

example : linearInterpolation [0, 1, 3] [2, 5, 4] 2 = .ok (9 / 2) ∧ linearInterpolation [0, 1, 3] [2, 5, 4] 5 = .ok 3 ∧
    linearInterpolationDerivative [0, 1, 3] [2, 5, 4] 2 = .ok (-1 / 2) ∧ linearInterpolation [3, 1, 0] [4, 5, 2] 2 = .ok (9 / 2) := by
  decide +kernel

end Opm.Interp
