import Verif.Model.RockCompressibility
import Verif.Props.Interp
import Mathlib.Tactic.Ring
import Mathlib.Tactic.Linarith
import Mathlib.Tactic.FieldSimp
/-!
# Properties of rock compressibility
-/

namespace Opm.Rock
open Opm Opm.Interp

/-- Near `x`, the function `f` has the slope `d`, up to second order. -/
def SlopeAt (f : Rat → M Rat) (x d : Rat) : Prop :=
  ∃ v C δ : Rat, f x = .ok v ∧ 0 < δ ∧ ∀ h, |h| < δ → ∃ w, f (x + h) = .ok w ∧ |w - v - d * h| ≤ C * h ^ 2

/-- A function has at most one slope. -/
theorem slope_unique {f : Rat → M Rat} {x d d' : Rat} (h : SlopeAt f x d) (h' : SlopeAt f x d') : d = d' := by
  obtain ⟨v, C, δ, e, h0, h1⟩ := h
  obtain ⟨v', C', δ', e', h0', h1'⟩ := h'
  rw [e] at e'
  cases e'
  by_contra hne
  have hpos : 0 < |d - d'| := abs_pos.2 (sub_ne_zero.2 hne)
  obtain ⟨K, hK⟩ : ∃ K, K = |C| + |C'| + 1 := ⟨_, rfl⟩
  have hKpos : 0 < K := by have := abs_nonneg C; have := abs_nonneg C'; linarith
  obtain ⟨t, ht⟩ : ∃ t, t = min (min (δ / 2) (δ' / 2)) (|d - d'| / (2 * K)) := ⟨_, rfl⟩
  have htpos : 0 < t := by
    rw [ht]
    exact lt_min (lt_min (by linarith) (by linarith)) (by positivity)
  have t1 : t ≤ δ / 2 := by rw [ht]; exact le_trans (min_le_left _ _) (min_le_left _ _)
  have t2 : t ≤ δ' / 2 := by rw [ht]; exact le_trans (min_le_left _ _) (min_le_right _ _)
  have t3 : t ≤ |d - d'| / (2 * K) := by rw [ht]; exact min_le_right _ _
  obtain ⟨w, e1, g1⟩ := h1 t (by rw [abs_of_pos htpos]; linarith)
  obtain ⟨w', e2, g2⟩ := h1' t (by rw [abs_of_pos htpos]; linarith)
  rw [e1] at e2
  cases e2
  have k1 : |(d - d') * t| ≤ (C + C') * t ^ 2 := by
    have : (d - d') * t = (w - v - d' * t) - (w - v - d * t) := by ring
    rw [this]
    calc |(w - v - d' * t) - (w - v - d * t)| ≤ |w - v - d' * t| + |w - v - d * t| := abs_sub _ _
      _ ≤ (C + C') * t ^ 2 := by linarith
  rw [abs_mul, abs_of_pos htpos] at k1
  have k2 : (C + C') * t ^ 2 ≤ K * t ^ 2 := by
    apply mul_le_mul_of_nonneg_right _ (by positivity)
    have := le_abs_self C
    have := le_abs_self C'
    linarith
  have k3 : |d - d'| * t ≤ K * t * t := by nlinarith
  have k4 : |d - d'| ≤ K * t := le_of_mul_le_mul_right k3 htpos
  have k5 : K * t ≤ |d - d'| / 2 := by
    calc K * t ≤ K * (|d - d'| / (2 * K)) := mul_le_mul_of_nonneg_left t3 hKpos.le
      _ = |d - d'| / 2 := by field_simp
  linarith

/-- Without a table, the multiplier is 1 at the reference pressure, at least one half everywhere, and has the compressibility as its slope at the reference pressure. -/
theorem multiplier_without_table (r : RockComp) (h : r.p = []) :
    r.poroMult r.pref = .ok 1 ∧ (∀ x, ∃ v, r.poroMult x = .ok v ∧ 1 / 2 ≤ v) ∧ (∀ x, r.rockComp x = .ok r.comp) ∧ SlopeAt r.poroMult r.pref r.comp := by
  have he : ∀ x, r.poroMult x = .ok (1 + r.comp * (x - r.pref) + 1 / 2 * (r.comp * (x - r.pref)) * (r.comp * (x - r.pref))) := by
    intro x; unfold RockComp.poroMult; rw [h]; rfl
  refine ⟨by rw [he]; congr 1; ring, fun x => ⟨_, he x, ?_⟩, fun x => by unfold RockComp.rockComp; rw [h]; rfl, 1, r.comp ^ 2, 1, by rw [he]; congr 1; ring, by norm_num, fun t _ => ⟨_, he _, ?_⟩⟩
  · nlinarith [sq_nonneg (1 + r.comp * (x - r.pref))]
  · have : 1 + r.comp * (r.pref + t - r.pref) + 1 / 2 * (r.comp * (r.pref + t - r.pref)) * (r.comp * (r.pref + t - r.pref)) - 1 - r.comp * t = 1 / 2 * (r.comp * t) ^ 2 := by ring
    rw [this, abs_of_nonneg (by positivity)]
    nlinarith [sq_nonneg (r.comp * t)]

/-- Rock is called active exactly if the multiplier depends on pressure, unless there is a table. -/
theorem active_iff (r : RockComp) (h : r.p = []) : r.isActive = false ↔ ∀ x, r.poroMult x = .ok 1 := by
  have he : ∀ x, r.poroMult x = .ok (1 + r.comp * (x - r.pref) + 1 / 2 * (r.comp * (x - r.pref)) * (r.comp * (x - r.pref))) := by
    intro x; unfold RockComp.poroMult; rw [h]; rfl
  have : r.isActive = false ↔ r.comp = 0 := by unfold RockComp.isActive; rw [h]; simp
  rw [this]
  constructor
  · intro h0 x
    rw [he, h0]
    congr 1
    ring
  · intro hall
    by_contra hne
    have := hall (r.pref + 1 / r.comp)
    rw [he] at this
    have e := Except.ok.inj this
    have e2 : r.comp * (r.pref + 1 / r.comp - r.pref) = 1 := by field_simp; ring
    rw [e2] at e
    norm_num at e

/-- A usable table. -/
structure RockComp.Table (r : RockComp) : Prop where
  inc : r.p.Pairwise (· < ·)
  two : 2 ≤ r.p.length
  len : r.poromult.length = r.p.length

/-- With a table of positive multipliers, the multiplier is positive at all pressures in the range of the table, and takes the values of the table. -/
theorem multiplier_with_table (r : RockComp) (h : r.Table) (hpos : ∀ m ∈ r.poromult, 0 < m) :
    (∀ (i : Nat) x m, r.p[i]? = some x → r.poromult[i]? = some m → r.poroMult x = .ok m) ∧
    ∀ (i : Nat) x x1 x2, r.p[i]? = some x1 → r.p[i + 1]? = some x2 → x1 ≤ x → x ≤ x2 → ∃ v, r.poroMult x = .ok v ∧ 0 < v := by
  have hne : r.p.isEmpty = false := by
    cases e : r.p with
    | nil => have := h.two; rw [e] at this; simp at this
    | cons a l => rfl
  have he : ∀ x, r.poroMult x = linearInterpolation r.p r.poromult x := by
    intro x; unfold RockComp.poroMult; rw [if_neg (by rw [hne]; decide)]
  constructor
  · intro i x m hx hm
    rw [he]
    exact interpolation_reproduces r.p r.poromult (Or.inl h.inc) h.two h.len i x m hx hm
  · intro i x x1 x2 h1 h2 l1 l2
    have hi := (List.getElem?_eq_some_iff.1 h2).1
    have hl := h.len
    have hy1 := List.getElem?_eq_getElem (l := r.poromult) (i := i) (by omega)
    have hy2 := List.getElem?_eq_getElem (l := r.poromult) (i := i + 1) (by omega)
    obtain ⟨w, v, _, _, _, _, e, hlo, _⟩ := interpolation_between r.p r.poromult (Or.inl h.inc) h.len i x x1 x2 _ _ h1 h2 hy1 hy2 (le_trans (min_le_left _ _) l1) (le_trans l2 (le_max_right _ _))
    exact ⟨v, by rw [he]; exact e, lt_of_lt_of_le (lt_min (hpos _ (List.getElem_mem _)) (hpos _ (List.getElem_mem _))) hlo⟩

/-- On the line of interval `i`, extended beyond the ends of the table. -/
theorem interpolation_on_line {xv yv : List Rat} (hm : xv.Pairwise (· < ·)) (hlen : yv.length = xv.length) {i : Nat} {x x1 x2 y1 y2 : Rat} (hx1 : xv[i]? = some x1)
    (hx2 : xv[i + 1]? = some x2) (hy1 : yv[i]? = some y1) (hy2 : yv[i + 1]? = some y2) (hlo : 0 < i → x1 ≤ x) (hhi : i + 2 < xv.length → x ≤ x2) :
    linearInterpolation xv yv x = .ok (y1 + (y2 - y1) / (x2 - x1) * (x - x1)) := by
  have hlt : x1 < x2 := by
    have a := (List.getElem?_eq_some_iff.1 hx1)
    have b := (List.getElem?_eq_some_iff.1 hx2)
    obtain ⟨a1, rfl⟩ := a
    obtain ⟨b1, rfl⟩ := b
    exact List.pairwise_iff_getElem.1 hm i (i + 1) a1 b1 (by omega)
  have hi := (List.getElem?_eq_some_iff.1 hx2).1
  rcases le_or_gt x1 x with h1 | h1
  · rcases le_or_gt x x2 with h2 | h2
    · obtain ⟨w, v, _, _, ew, ev, e, _⟩ := interpolation_between xv yv (Or.inl hm) hlen i x x1 x2 y1 y2 hx1 hx2 hy1 hy2 (le_trans (min_le_left _ _) h1) (le_trans h2 (le_max_right _ _))
      rw [e, ev, ew]
      congr 1
      have : x2 - x1 ≠ 0 := by linarith
      field_simp
      ring
    · exact interpolation_extrapolates xv yv (Or.inl hm) hlen i x x1 x2 y1 y2 hx1 hx2 hy1 hy2 (Or.inr ⟨by
        by_contra hn
        exact absurd (hhi (by omega)) (not_le.2 h2), Or.inl ⟨hlt, h2.le⟩⟩)
  · exact interpolation_extrapolates xv yv (Or.inl hm) hlen i x x1 x2 y1 y2 hx1 hx2 hy1 hy2 (Or.inl ⟨by
        by_contra hn
        exact absurd (hlo (by omega)) (not_le.2 h1), Or.inl ⟨hlt, h1.le⟩⟩)

/-- Full statement: `rockComp` is the slope of `poroMult` divided by `poroMult`, at every pressure.  Missing: rock without a table, for which this holds at the reference pressure only
(see `multiplier_without_table`, `constant_compressibility_is_not_derivative`); nodes of the table, where there is no slope. -/
theorem rock_comp_is_logarithmic_derivative_partial (r : RockComp) (h : r.Table) (x : Rat) (hx : x ∉ r.p) :
    ∃ v d, r.poroMult x = .ok v ∧ SlopeAt r.poroMult x d ∧ r.rockComp x = fdiv d v := by
  have hne : r.p.isEmpty = false := by
    cases e : r.p with
    | nil => have := h.two; rw [e] at this; simp at this
    | cons a l => rfl
  have he : ∀ x, r.poroMult x = linearInterpolation r.p r.poromult x := by
    intro x; unfold RockComp.poroMult; rw [if_neg (by rw [hne]; decide)]
  obtain ⟨i, x1, x2, y1, y2, hi, hin, hx1, hx2, hy1, hy2, _, _, ed⟩ := deriv_on (dir_of_lt h.inc) (by have := h.len; omega) h.two x (yv := r.poromult)
  have lo : 0 < i → x1 < x := fun h0 => lt_of_le_of_ne (by have := hin.1 _ h0 hx1; linarith) (fun e => hx (by rw [← e]; exact List.mem_of_getElem? hx1))
  have hi2 : i + 2 < r.p.length → x < x2 := fun h0 => lt_of_le_of_ne (by have := hin.2 _ h0 hx2; linarith) (fun e => hx (by rw [e]; exact List.mem_of_getElem? hx2))
  have hv := interpolation_on_line h.inc h.len hx1 hx2 hy1 hy2 (fun h0 => (lo h0).le) (fun h0 => (hi2 h0).le)
  refine ⟨_, (y2 - y1) / (x2 - x1), by rw [he]; exact hv, ⟨_, 0, min (if 0 < i then x - x1 else 1) (if i + 2 < r.p.length then x2 - x else 1), by rw [he]; exact hv, ?_, ?_⟩, ?_⟩
  · refine lt_min ?_ ?_
    · split
      · rename_i h0; have := lo h0; linarith
      · norm_num
    · split
      · rename_i h0; have := hi2 h0; linarith
      · norm_num
  · intro t ht
    obtain ⟨t1, t2⟩ := lt_min_iff.1 ht
    rw [abs_lt] at t1 t2
    refine ⟨_, by rw [he]; exact interpolation_on_line h.inc h.len hx1 hx2 hy1 hy2 (fun h0 => by rw [if_pos h0] at t1; linarith) (fun h0 => by rw [if_pos h0] at t2; linarith), ?_⟩
    rw [show y1 + (y2 - y1) / (x2 - x1) * (x + t - x1) - (y1 + (y2 - y1) / (x2 - x1) * (x - x1)) - (y2 - y1) / (x2 - x1) * t = 0 by ring]
    simp
  · unfold RockComp.rockComp
    rw [if_neg (by rw [hne]; decide), hv, bind_ok, ed, bind_ok]

/-- A table, with a pressure between its nodes. -/
example : (⟨[100, 200, 400], [9 / 10, 1, 11 / 10], 0, 0⟩ : RockComp).Table ∧ (150 : Rat) ∉ ([100, 200, 400] : List Rat) ∧
    (⟨[100, 200, 400], [9 / 10, 1, 11 / 10], 0, 0⟩ : RockComp).poroMult 150 = .ok (19 / 20) ∧
    (⟨[100, 200, 400], [9 / 10, 1, 11 / 10], 0, 0⟩ : RockComp).rockComp 150 = .ok (1 / 950) :=
  ⟨⟨by decide +kernel, by decide, by decide⟩, by decide +kernel, by decide +kernel, by decide +kernel⟩

/-- Without a table, `rockComp` is not the logarithmic derivative of `poroMult` away from the reference pressure. -/
theorem constant_compressibility_is_not_derivative : ∃ (r : RockComp) (x v d : Rat), r.p = [] ∧ r.poroMult x = .ok v ∧ SlopeAt r.poroMult x d ∧ r.rockComp x ≠ fdiv d v := by
  refine ⟨⟨[], [], 0, 1⟩, 1, 5 / 2, 2, rfl, by decide +kernel, ⟨5 / 2, 1, 1, by decide +kernel, by norm_num, fun t _ => ⟨_, rfl, ?_⟩⟩, by decide +kernel⟩
  simp only
  have : 1 + 1 * (1 + t - 0) + 1 / 2 * (1 * (1 + t - 0)) * (1 * (1 + t - 0)) - 5 / 2 - 2 * t = 1 / 2 * t ^ 2 := by ring
  rw [this, abs_of_nonneg (by positivity)]
  nlinarith [sq_nonneg t]

/-- Outside the range of a table the multiplier may become negative. -/
theorem multiplier_extrapolated_negative : ∃ (r : RockComp) (x v : Rat), r.Table ∧ (∀ m ∈ r.poromult, 0 < m) ∧ r.poroMult x = .ok v ∧ v < 0 :=
  ⟨⟨[100, 200], [1 / 2, 1], 0, 0⟩, -100, -1 / 2, ⟨by decide +kernel, by decide, by decide⟩, by decide +kernel, by decide +kernel, by decide +kernel⟩

/-- `ofDeck` stores the table that it is given, provided there are as many multipliers as pressures. -/
theorem of_deck_table (ps ms : List Rat) (rock : Option (Rat × Rat)) (h : ms.length = ps.length) : RockComp.ofDeck (some (ps, ms)) rock = .ok ⟨ps, ms, 0, 0⟩ := by
  unfold RockComp.ofDeck
  simp only
  obtain ⟨l, e, h1, h2⟩ := loop_inv (n := ps.length) (s := List.replicate ps.length (0 : Rat)) (f := fun i (l : List Rat) => do
      let v ← rd ms i
      wr l i v) (fun i (l : List Rat) => l.length = ps.length ∧ l.take i = ms.take i) (by simp) (by
        rintro i l hi ⟨h1, h2⟩
        rw [rd_ok (by omega), bind_ok, wr_ok (by omega)]
        refine ⟨_, rfl, by rw [List.length_set]; exact h1, ?_⟩
        rw [List.take_add_one, List.take_add_one, List.take_set_of_le (le_refl i), h2, List.getElem?_set_self (by omega), List.getElem?_eq_getElem (by omega)])
  rw [e, bind_ok]
  have : l = ms := by
    rw [← h1] at h2
    rw [List.take_length, h1, ← h, List.take_length] at h2
    exact h2
  rw [this]

/-- Without `ROCKTAB` the `ROCK` line gives reference pressure and compressibility, in this order: the multiplier is 1 at the given pressure and the compressibility is the given one. -/
theorem of_deck_rock (pref comp : Rat) : ∃ r, RockComp.ofDeck none (some (pref, comp)) = .ok r ∧ r.poroMult pref = .ok 1 ∧ (∀ x, r.rockComp x = .ok comp) ∧
    SlopeAt r.poroMult pref comp := by
  obtain ⟨h1, _, h3, h4⟩ := multiplier_without_table ⟨[], [], pref, comp⟩ rfl
  exact ⟨_, rfl, h1, h3, h4⟩

/-- With neither keyword the rock is rigid. -/
theorem of_deck_rigid : ∃ r, RockComp.ofDeck none none = .ok r ∧ r.isActive = false ∧ (∀ x, r.poroMult x = .ok 1) ∧ ∀ x, r.rockComp x = .ok 0 := by
  refine ⟨_, rfl, rfl, fun x => ?_, fun x => rfl⟩
  simp [RockComp.poroMult]

/-- Parameters are in bar and 1/bar, pressures in pascal (`100000` pascal are one bar): a pressure change of one bar changes the multiplier by `comp` to first order. -/
theorem of_param_units (pref comp : Rat) : (RockComp.ofParam pref comp).poroMult (100000 * pref) = .ok 1 ∧
    ∀ bars : Rat, (RockComp.ofParam pref comp).poroMult (100000 * (pref + bars)) = .ok (1 + comp * bars + (comp * bars) ^ 2 / 2) := by
  constructor
  · simp only [RockComp.poroMult, RockComp.ofParam, List.isEmpty_nil, if_true]
    congr 1; ring
  · intro b
    simp only [RockComp.poroMult, RockComp.ofParam, List.isEmpty_nil, if_true]
    congr 1; ring

end Opm.Rock
