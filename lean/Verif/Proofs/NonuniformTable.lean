import Verif.Proofs.Interp
/-! # Proofs about `NonuniformTableLinear` -/

namespace Opm.Interp
open Opm

theorem back_ok {l : List Rat} {x : Rat} (h : l[l.length - 1]? = some x) : back l = .ok x := rd_of_getElem? h

/-- The affine map taking `[a,b]` to `[c,d]`. -/
def affine (a b c d x : Rat) : Rat := (x - a) * (d - c) / (b - a) + c

theorem rescale_ok {t : NTable} {a b : Rat} (ha : t.xs[0]? = some a) (hb : t.xs[t.xs.length - 1]? = some b) (hab : a ≠ b) (c d : Rat) :
    t.rescaleDomain (c, d) = .ok { t with xs := t.xs.map (affine a b c d) } := by
  unfold NTable.rescaleDomain
  rw [rd_of_getElem? ha, bind_ok, back_ok hb, bind_ok]
  simp only
  rw [loop_map t.xs _ (affine a b c d)]
  · rfl
  · intro i x l hl hx _
    have hi := (List.getElem?_eq_some_iff.1 hx).1
    rw [rd_of_getElem? hx, bind_ok, fdiv_ok (sub_ne_zero.2 (Ne.symm hab)), bind_ok, wr_ok hi]
    rfl

theorem affine_sub {a b c d : Rat} (h : a ≠ b) (x y : Rat) : affine a b c d x - affine a b c d y = (d - c) / (b - a) * (x - y) := by
  have : b - a ≠ 0 := sub_ne_zero.2 (Ne.symm h)
  unfold affine; field_simp; ring

theorem affine_left {a b c d : Rat} : affine a b c d a = c := by simp [affine]
theorem affine_right {a b c d : Rat} (h : a ≠ b) : affine a b c d b = d := by
  have : b - a ≠ 0 := sub_ne_zero.2 (Ne.symm h)
  unfold affine; field_simp; ring

theorem affine_dir {a b c d : Rat} {xs : List Rat} (hd : Dir 1 xs) (hab : a < b) (hcd : c < d) : Dir 1 (xs.map (affine a b c d)) where
  sgn := .inl rfl
  mono := by
    intro i j u v hij hu hv
    rw [List.getElem?_map, Option.map_eq_some_iff] at hu hv
    obtain ⟨x, hx, rfl⟩ := hu
    obtain ⟨y, hy, rfl⟩ := hv
    have h1 := hd.mono i j _ _ hij hx hy
    have h2 := affine_sub (c := c) (d := d) (ne_of_lt hab) y x
    have h3 : 0 < (d - c) / (b - a) * (y - x) := mul_pos (div_pos (by linarith) (by linarith)) (by linarith)
    linarith

theorem affine_ext {a b c d : Rat} {xs : List Rat} (hab : a < b) (hcd : c < d) {i : Nat} {x : Rat} (h : InExt 1 xs i x) :
    InExt 1 (xs.map (affine a b c d)) i (affine a b c d x) := by
  have key : ∀ u v, u ≤ v → affine a b c d u ≤ affine a b c d v := by
    intro u v huv
    have h2 := affine_sub (c := c) (d := d) (ne_of_lt hab) v u
    have h3 : 0 ≤ (d - c) / (b - a) * (v - u) := mul_nonneg (div_nonneg (by linarith) (by linarith)) (by linarith)
    linarith
  refine ⟨fun u h0 hu => ?_, fun u h0 hu => ?_⟩
  · rw [List.getElem?_map, Option.map_eq_some_iff] at hu
    obtain ⟨v, hv, rfl⟩ := hu
    have := h.1 v h0 hv
    have := key v x (by linarith)
    linarith
  · rw [List.length_map] at h0
    rw [List.getElem?_map, Option.map_eq_some_iff] at hu
    obtain ⟨v, hv, rfl⟩ := hu
    have := h.2 v h0 hv
    have := key x v (by linarith)
    linarith

theorem line_affine {a b c d x1 x2 y1 y2 x : Rat} (hab : a ≠ b) (hcd : c ≠ d) (h : x1 ≠ x2) :
    line (affine a b c d x1) y1 (affine a b c d x2) y2 (affine a b c d x) = line x1 y1 x2 y2 x := by
  have h1 : x2 - x1 ≠ 0 := sub_ne_zero.2 (Ne.symm h)
  have h2 : b - a ≠ 0 := sub_ne_zero.2 (Ne.symm hab)
  have h3 : d - c ≠ 0 := sub_ne_zero.2 (Ne.symm hcd)
  have h4 : (d - c) / (b - a) ≠ 0 := div_ne_zero h3 h2
  unfold line
  rw [affine_sub hab, affine_sub hab]
  field_simp

theorem eval_affine {a b c d : Rat} {xs ys : List Rat} (hd : Dir 1 xs) (hlen : xs.length ≤ ys.length) (h2 : 2 ≤ xs.length)
    (hab : a < b) (hcd : c < d) (x : Rat) :
    linearInterpolation (xs.map (affine a b c d)) ys (affine a b c d x) = linearInterpolation xs ys x := by
  obtain ⟨i, x1, x2, y1, y2, hi, hin, gx1, gx2, gy1, gy2, hne, e, _⟩ := deriv_on hd hlen h2 x
  rw [e]
  have g1 : (xs.map (affine a b c d))[i]? = some (affine a b c d x1) := by rw [List.getElem?_map, gx1]; rfl
  have g2 : (xs.map (affine a b c d))[i + 1]? = some (affine a b c d x2) := by rw [List.getElem?_map, gx2]; rfl
  rw [interp_on (affine_dir hd hab hcd) (by simpa using hlen) (by simpa using hi) (affine_ext hab hcd hin) g1 g2 gy1 gy2,
    line_affine (ne_of_lt hab) (ne_of_lt hcd) hne]

/-- Interpolating backwards undoes interpolating forwards. -/
theorem interp_inverse {s s' : Rat} {xs ys : List Rat} (hd : Dir s xs) (hd' : Dir s' ys) (hlen : ys.length = xs.length)
    (h2 : 2 ≤ xs.length) {x y : Rat} (h : linearInterpolation xs ys x = .ok y) : linearInterpolation ys xs y = .ok x := by
  obtain ⟨i, x1, x2, y1, y2, hi, hin, gx1, gx2, gy1, gy2, hne, e, _⟩ := deriv_on hd (by omega) h2 x (yv := ys)
  rw [h] at e
  have ey : y = line x1 y1 x2 y2 x := Except.ok.inj e
  have hx := hd.mono i (i + 1) _ _ (by omega) gx1 gx2
  have hy := hd'.mono i (i + 1) _ _ (by omega) gy1 gy2
  have hin' : InExt s' ys i y := by
    refine ⟨fun u h0 hu => ?_, fun u h0 hu => ?_⟩
    · rw [gy1] at hu; cases hu
      have := line_mono (σ := s') hd.sgn hx (le_of_lt hy) (hin.1 _ h0 gx1)
      rw [line_left] at this
      rw [ey]; exact this
    · rw [gy2] at hu; cases hu
      have := line_mono (σ := s') hd.sgn hx (le_of_lt hy) (hin.2 _ (by omega) gx2)
      rw [line_right hne] at this
      rw [ey]; exact this
  rw [interp_on hd' (by omega) (by omega) hin' gy1 gy2 gx1 gx2, ey, line_inv hne (dir_ne hd' (Nat.lt_succ_self i) gy1 gy2)]

theorem dir_reverse {s : Rat} {t : List Rat} (h : Dir s t) : Dir (-s) t.reverse where
  sgn := by rcases h.sgn with rfl | rfl <;> simp
  mono := by
    intro i j a b hij ha hb
    have hi := (List.getElem?_eq_some_iff.1 ha).1
    have hj := (List.getElem?_eq_some_iff.1 hb).1
    rw [List.length_reverse] at hi hj
    rw [List.getElem?_reverse hi] at ha
    rw [List.getElem?_reverse hj] at hb
    have := h.mono (t.length - 1 - j) (t.length - 1 - i) _ _ (by omega) hb ha
    linarith

theorem interp_reverse {s : Rat} {xs ys : List Rat} (hd : Dir s xs) (hlen : ys.length = xs.length) (h2 : 2 ≤ xs.length) (x : Rat) :
    linearInterpolation xs.reverse ys.reverse x = linearInterpolation xs ys x := by
  obtain ⟨i, x1, x2, y1, y2, hi, hin, gx1, gx2, gy1, gy2, hne, e, _⟩ := deriv_on hd (by omega) h2 x (yv := ys)
  rw [e]
  have hrev : ∀ (l : List Rat) (k : Nat), l.length = xs.length → k + 1 < xs.length → l.reverse[xs.length - 2 - k]? = l[k + 1]? ∧
      l.reverse[xs.length - 2 - k + 1]? = l[k]? := by
    intro l k hl hk
    rw [List.getElem?_reverse (by omega), List.getElem?_reverse (by omega), hl]
    constructor <;> congr 1 <;> omega
  obtain ⟨a1, a2⟩ := hrev xs i rfl hi
  obtain ⟨b1, b2⟩ := hrev ys i hlen hi
  rw [gx2] at a1; rw [gx1] at a2; rw [gy2] at b1; rw [gy1] at b2
  have hin' : InExt (-s) xs.reverse (xs.length - 2 - i) x := by
    refine ⟨fun u h0 hu => ?_, fun u h0 hu => ?_⟩
    · rw [a1] at hu; cases hu
      have := hin.2 _ (by omega) gx2
      linarith
    · rw [List.length_reverse] at h0
      rw [a2] at hu; cases hu
      have := hin.1 _ (by omega) gx1
      linarith
  rw [interp_on (dir_reverse hd) (by simp [hlen]) (by rw [List.length_reverse]; omega) hin' a1 a2 b1 b2, line_swap hne]

theorem isNondecreasing_iff (l : List Rat) : isNondecreasing l = true ↔ l.Pairwise (· ≤ ·) := by
  induction l with
  | nil => simp [isNondecreasing]
  | cons a l ih =>
    cases l with
    | nil => simp [isNondecreasing]
    | cons b l =>
      unfold isNondecreasing
      by_cases h : b < a
      · rw [if_pos h]
        simp only [Bool.false_eq_true, false_iff]
        rw [List.pairwise_cons]
        rintro ⟨h1, _⟩
        have := h1 b (by simp)
        linarith
      · rw [if_neg h, ih, List.pairwise_cons (a := a)]
        refine ⟨fun h1 => ⟨fun x hx => ?_, h1⟩, fun h1 => h1.2⟩
        rw [List.pairwise_cons] at h1
        rcases List.mem_cons.1 hx with rfl | hx
        · linarith
        · have := h1.1 x hx; linarith

/-- The table data: increasing abscissas, strictly monotone ordinates. -/
structure GoodTable (xs ys : List Rat) : Prop where
  x : xs.Pairwise (· < ·)
  y : ys.Pairwise (· < ·) ∨ ys.Pairwise (· > ·)
  len : ys.length = xs.length
  two : 2 ≤ xs.length

/-- The cache is absent or in agreement with the table. -/
def CacheOk (t : NTable) : Prop := t.ysRev = [] ∨ (t.ysRev = t.ys.reverse ∧ t.xsRev = t.xs.reverse)

theorem ends {l : List Rat} (h : 2 ≤ l.length) : ∃ a b, l[0]? = some a ∧ l[l.length - 1]? = some b :=
  ⟨l[0], l[l.length - 1], List.getElem?_eq_getElem (by omega), List.getElem?_eq_getElem (by omega)⟩

/-- What `inverse` does while the cache is consistent (or not used). -/
theorem inverse_ok {t : NTable} (hg : GoodTable t.xs t.ys) (hc : t.ys.Pairwise (· < ·) ∨ CacheOk t) {x y : Rat}
    (hf : t.eval x = .ok y) : ∃ t', t.inverse y = .ok (x, t') ∧ t'.xs = t.xs ∧ t'.ys = t.ys ∧
      (CacheOk t → CacheOk t') ∧ (t.ys.Pairwise (· < ·) → t' = t) := by
  have hdx := dir_of_lt hg.x
  have hlen := hg.len
  have h2 := hg.two
  obtain ⟨f, b, gf, gb⟩ := ends (l := t.ys) (by omega)
  unfold NTable.inverse
  rw [rd_of_getElem? gf, bind_ok, back_ok gb, bind_ok]
  rcases hg.y with hy | hy
  · have hdy := dir_of_lt hy
    have := hdy.mono 0 (t.ys.length - 1) _ _ (by omega) gf gb
    rw [if_pos (by linarith), interp_inverse hdx hdy hlen h2 hf, bind_ok]
    exact ⟨t, rfl, rfl, rfl, id, fun _ => rfl⟩
  · have hdy := dir_of_gt hy
    have hlt := hdy.mono 0 (t.ys.length - 1) _ _ (by omega) gf gb
    rw [if_neg (by linarith)]
    have hinc : ¬ t.ys.Pairwise (· < ·) := by
      intro h
      have := (dir_of_lt h).mono 0 (t.ys.length - 1) _ _ (by omega) gf gb
      linarith
    have hc' : CacheOk t := by rcases hc with h | h; exacts [absurd h hinc, h]
    have hfill : ∃ t', t.fillCache = .ok t' ∧ t'.xs = t.xs ∧ t'.ys = t.ys ∧ t'.ysRev = t.ys.reverse ∧ t'.xsRev = t.xs.reverse := by
      unfold NTable.fillCache
      rcases hc' with h | ⟨h, h'⟩
      · rw [h]
        simp only [List.isEmpty_nil, if_true]
        rw [check_ok ((isNondecreasing_iff _).2 ?_), bind_ok]
        · exact ⟨_, rfl, rfl, rfl, rfl, rfl⟩
        · have := pairwise_of_dir_one (by simpa using dir_reverse hdy)
          exact this.imp (fun h => le_of_lt h)
      · have hne : t.ysRev.isEmpty = false := by
          rw [h]
          cases hr : t.ys with
          | nil => rw [hr] at hlen; simp at hlen; omega
          | cons _ _ => simp
        rw [hne]
        exact ⟨t, rfl, rfl, rfl, h, h'⟩
    obtain ⟨t', e, k1, k2, k3, k4⟩ := hfill
    rw [e, bind_ok, k3, k4, interp_reverse hdy (by omega) (by omega), interp_inverse hdx hdy hlen h2 hf, bind_ok]
    exact ⟨t', rfl, k1, k2, fun _ => .inr ⟨by rw [k3, k2], by rw [k4, k1]⟩, fun h => absurd h hinc⟩

end Opm.Interp
