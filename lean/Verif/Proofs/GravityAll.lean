import Verif.Proofs.GravityColumn
import Verif.Props.MiscUtil
import Mathlib.Algebra.BigOperators.Intervals
import Verif.Proofs.IfsFlux
import Mathlib.Algebra.Order.BigOperators.Group.Finset
/-!
# Gravity segregation: all columns, and the balance of water
-/

namespace Opm.GravitySegregation
open Opm Opm.TwophaseReorder

theorem toWaterSat_ok {nc : Nat} {both : List Rat} (sat : List Rat) (hl : both.length = 2 * nc) :
    ∃ sw, MiscUtil.toWaterSat both sat = .ok sw ∧ sw.length = nc ∧ ∀ c < nc, sw.getD c 0 = both.getD (2 * c) 0 := by
  have hd : both.length / 2 = nc := by omega
  obtain ⟨t', e', h1', h2', _⟩ := IfsTpfa.loop_write (n := nc) (s := MiscUtil.vresize sat nc) (f := fun i sw => do
    let x ← rd both (2 * i)
    wr sw i x) (fun i => both.getD (2 * i) 0) (by rw [MiscUtil.length_vresize]) (by
      intro i u hi _
      rw [rd_of_getElem? (getElem?_getD (by omega)), bind_ok])
  unfold MiscUtil.toWaterSat
  rw [hd, e']
  exact ⟨t', rfl, by rw [h1', MiscUtil.length_vresize], h2'⟩

theorem initMobilities_ok {E : Env} {both : List Rat} (hl : both.length = 2 * E.g.nc) (h1 : ∀ c < E.g.nc, both.getD (2 * c) 0 + both.getD (2 * c + 1) 0 = 1) :
    ∃ mob, initMobilities E both = .ok mob ∧ mob.length = 2 * E.g.nc ∧
      ∀ c < E.g.nc, mob.getD (2 * c) 0 = (mobs E c (both.getD (2 * c) 0)).1 ∧ mob.getD (2 * c + 1) 0 = (mobs E c (both.getD (2 * c) 0)).2 := by
  obtain ⟨mob, e, l, v⟩ := loop_inv (n := E.g.nc) (s := List.replicate (2 * E.g.nc) (0 : Rat))
    (f := fun c mob => do
      let w ← rd both (2 * c)
      let o ← rd both (2 * c + 1)
      let mob ← wr mob (2 * c) ((E.fluid.relperm c w o).1 / E.fluid.mu.1)
      wr mob (2 * c + 1) ((E.fluid.relperm c w o).2 / E.fluid.mu.2))
    (fun (k : Nat) (t : List Rat) => t.length = 2 * E.g.nc ∧
      ∀ c < k, t.getD (2 * c) 0 = (mobs E c (both.getD (2 * c) 0)).1 ∧ t.getD (2 * c + 1) 0 = (mobs E c (both.getD (2 * c) 0)).2)
    ⟨by simp, fun c hc => by omega⟩
    (fun k t hk ⟨tl, tv⟩ => by
      rw [rd_of_getElem? (getElem?_getD (by omega)), bind_ok, rd_of_getElem? (getElem?_getD (by omega)), bind_ok, wr_ok (by omega), bind_ok,
        wr_ok (by simp only [List.length_set]; omega)]
      have ho : both.getD (2 * k + 1) 0 = 1 - both.getD (2 * k) 0 := by linarith [h1 k hk]
      refine ⟨_, rfl, by simp [tl], fun c hc => ?_⟩
      by_cases hck : c = k
      · subst hck
        constructor
        · rw [List.getD_eq_getElem?_getD, List.getElem?_set_ne (by omega), List.getElem?_set_self (by omega), Option.getD_some, ho]
          rfl
        · rw [List.getD_eq_getElem?_getD, List.getElem?_set_self (by simp only [List.length_set]; omega), Option.getD_some, ho]
          rfl
      · have := tv c (by omega)
        rw [List.getD_eq_getElem?_getD, List.getElem?_set_ne (by omega), List.getElem?_set_ne (by omega), ← List.getD_eq_getElem?_getD,
          List.getD_eq_getElem?_getD (i := 2 * c + 1), List.getElem?_set_ne (by omega), List.getElem?_set_ne (by omega), ← List.getD_eq_getElem?_getD]
        exact this)
  exact ⟨mob, e, l, v⟩

/-- A column the solver can treat. -/
structure Column (E : Env) (cells : List Nat) : Prop where
  ok : ColOk E cells
  nonempty : cells ≠ []
  one : ∀ p, p + 1 < cells.length → E.g.OneFace (cells.getD p 0) (cells.getD (p + 1) 0)

/-- The equations of a column, with the saturations `a` before and `b` after. -/
def ColumnSolved (E : Env) (cells : List Nat) (a b : Nat → Rat) : Prop :=
  ∀ p, p < cells.length → ∃ y : Nat → Rat,
    (∀ q, q < cells.length → q ≠ p → (lo E (cells.getD q 0) ≤ y (cells.getD q 0) ∧ y (cells.getD q 0) ≤ hi E (cells.getD q 0)) ∧
      |y (cells.getD q 0) - b (cells.getD q 0)| ≤ 2 * E.tol) ∧
    Solved E (E.g.between E.gravflux) cells p (a (cells.getD p 0)) y (b (cells.getD p 0))

theorem columns_ok {E : Env} (h : EnvOk E) : ∀ (cols : List (List Nat)) (s : State), (∀ col ∈ cols, Column E col) → cols.flatten.Nodup → Fits E s →
    (∀ c < E.g.nc, Good E s c) →
    (∃ s', cols.foldlM (solveColumn E) s = .ok s' ∧ Fits E s' ∧ (∀ c < E.g.nc, Good E s' c) ∧ (∀ d, d ∉ cols.flatten → SameAt s s' d) ∧
      ∀ col ∈ cols, ColumnSolved E col (fun c => s.sat.getD c 0) (fun c => s'.sat.getD c 0)) ∨ cols.foldlM (solveColumn E) s = .error .thrown
  | [], s, _, _, hs, hg => .inl ⟨s, rfl, hs, hg, fun d _ => ⟨rfl, rfl, rfl⟩, fun col hc => by simp at hc⟩
  | col :: rest, s, hcol, hnd, hs, hg => by
    have hk := hcol col (by simp)
    rw [List.flatten_cons, List.nodup_append] at hnd
    obtain ⟨nd1, nd2, hdis⟩ := hnd
    rw [List.foldlM_cons]
    rcases solveColumn_ok h hk.ok hk.nonempty hk.one hs (fun c hc => hg c (hk.ok.range c hc)) with ⟨s1, e1, c1, s0, v0, q1⟩ | e1
    · rw [e1, bind_ok]
      have g1 : ∀ c < E.g.nc, Good E s1 c := fun c hc => by
        by_cases hm : c ∈ col
        · exact c1.good c hm
        · exact (c1.rest c hm).good (hg c hc)
      rcases columns_ok h rest s1 (fun c hc => hcol c (by simp [hc])) nd2 c1.fits g1 with ⟨s2, e2, f2, g2, o2, q2⟩ | e2
      · refine .inl ⟨s2, e2, f2, g2, fun d hd => ?_, fun c hc => ?_⟩
        · rw [List.flatten_cons, List.mem_append, not_or] at hd
          exact (c1.rest d hd.1).trans (o2 d hd.2)
        · rcases List.mem_cons.1 hc with rfl | hc
          · intro p hp
            obtain ⟨y, hy, hsol⟩ := q1 p hp
            have same : ∀ q, q < c.length → s2.sat.getD (c.getD q 0) 0 = s1.sat.getD (c.getD q 0) 0 := fun q hq =>
              (o2 _ (fun hm => hdis _ (List.mem_of_getElem? (ColOk.get hq)) _ hm rfl)).sat
            refine ⟨y, fun q hq hne => ?_, ?_⟩
            · show _ ∧ |y (c.getD q 0) - s2.sat.getD (c.getD q 0) 0| ≤ _
              rw [same q hq]
              exact hy q hq hne
            · show Solved E _ c p (s.sat.getD (c.getD p 0) 0) y (s2.sat.getD (c.getD p 0) 0)
              rw [same p hp, ← v0 p hp]
              exact hsol
          · intro p hp
            obtain ⟨y, hy, hsol⟩ := q2 c hc p hp
            refine ⟨y, hy, ?_⟩
            have hm : c.getD p 0 ∉ col := fun hm => hdis _ hm _ (List.mem_flatten.2 ⟨c, hc, List.mem_of_getElem? (ColOk.get hp)⟩) rfl
            show Solved E _ c p (s.sat.getD (c.getD p 0) 0) y _
            rw [← (c1.rest _ hm).sat]
            exact hsol
      · exact .inr e2
    · rw [e1]
      exact .inr rfl

/-- A change of sign in a small interval makes the residual small. -/
theorem nearZero_small {lo hi tol K : Rat} {R : Rat → Rat} {s : Rat} (hs : lo ≤ s ∧ s ≤ hi)
    (hL : ∀ x y, lo ≤ x → x ≤ hi → lo ≤ y → y ≤ hi → |R x - R y| ≤ K * |x - y|) (h : NearZeroIn lo hi tol R s) :
    |R s| ≤ max (tol + 1 / 2 ^ 52 * max |R lo| 1) (K * (1 / 10 ^ 9 * (tol + 1 / 2 ^ 52 * max (max |lo| |hi|) 1))) := by
  rcases h with h | ⟨a, b, ha, hb, hab, hw, rfl⟩
  · exact le_trans h.le (le_max_left _ _)
  · refine le_trans ?_ (le_max_right _ _)
    have hK : 0 ≤ K := by
      have h1 := le_trans (abs_nonneg _) (hL a b ha.1 ha.2 hb.1 hb.2)
      have h2 : 0 < |a - b| := by
        rw [abs_pos, sub_ne_zero]
        rintro rfl
        nlinarith [mul_self_nonneg (R a)]
      by_contra hn
      nlinarith [mul_neg_of_neg_of_pos (not_le.1 hn) h2]
    have l1 := hL ((a + b) / 2) a hs.1 hs.2 ha.1 ha.2
    have l2 := hL ((a + b) / 2) b hs.1 hs.2 hb.1 hb.2
    have d1 : |(a + b) / 2 - a| ≤ |b - a| := by
      rw [show (a + b) / 2 - a = (b - a) / 2 by ring, abs_div, abs_two]
      linarith [abs_nonneg (b - a)]
    have d2 : |(a + b) / 2 - b| ≤ |b - a| := by
      rw [show (a + b) / 2 - b = -((b - a) / 2) by ring, abs_neg, abs_div, abs_two]
      linarith [abs_nonneg (b - a)]
    have e1 := mul_le_mul_of_nonneg_left d1 hK
    have e2 := mul_le_mul_of_nonneg_left d2 hK
    have e3 := mul_le_mul_of_nonneg_left hw.le hK
    rw [abs_le] at l1 l2 ⊢
    rcases mul_neg_iff.1 hab with ⟨p1, p2⟩ | ⟨p1, p2⟩ <;> constructor <;> linarith

theorem abs_lip {a b L u v : Rat} (h : |a - b| ≤ L * (|u| + |v|)) (hv : v = 0) : |a - b| ≤ L * |u| := by
  rw [hv, abs_zero, add_zero] at h
  exact h

variable {mob : Nat → Rat → Rat × Rat} {G : Nat → Nat → Rat} {lo hi : Nat → Rat} {L : Rat} {cells : List Nat}

/-- The residual depends on the saturation of its cell with Lipschitz constant `1 + 2 L dt / pv`. -/
theorem residual_lipschitz {pv : List Rat} {dt : Rat} {p : Nat} (hd : 0 ≤ dt / pv.getD (cells.getD p 0) 0) (hL0 : 0 ≤ L)
    (hL : ∀ p, p + 1 < cells.length → LipschitzExchange mob G lo hi L (cells.getD p 0) (cells.getD (p + 1) 0)) (hp : p < cells.length) {s0 : Rat} {y : Nat → Rat}
    (hy : ∀ q, q < cells.length → q ≠ p → lo (cells.getD q 0) ≤ y (cells.getD q 0) ∧ y (cells.getD q 0) ≤ hi (cells.getD q 0)) :
    ∀ x x', lo (cells.getD p 0) ≤ x → x ≤ hi (cells.getD p 0) → lo (cells.getD p 0) ≤ x' → x' ≤ hi (cells.getD p 0) →
      |segregationResidual mob G pv dt cells p s0 y x - segregationResidual mob G pv dt cells p s0 y x'| ≤ (1 + 2 * L * (dt / pv.getD (cells.getD p 0) 0)) * |x - x'| := by
  intro x x' h1 h2 h3 h4
  have d1 : |downwards mob G cells p (fun _ => x) y - downwards mob G cells p (fun _ => x') y| ≤ L * |x - x'| := by
    unfold downwards
    by_cases hq : p + 1 < cells.length
    · rw [if_pos hq, if_pos hq]
      have := hy (p + 1) hq (by omega)
      exact abs_lip (hL p hq x x' _ _ h1 h2 h3 h4 this.1 this.2 this.1 this.2) (sub_self _)
    · rw [if_neg hq, if_neg hq, sub_self, abs_zero]
      exact mul_nonneg hL0 (abs_nonneg _)
  have d2 : |fromAbove mob G cells p y (fun _ => x) - fromAbove mob G cells p y (fun _ => x')| ≤ L * |x - x'| := by
    unfold fromAbove
    by_cases hq : 0 < p
    · rw [if_pos hq, if_pos hq]
      have := hy (p - 1) (by omega) (by omega)
      have hl := hL (p - 1) (by omega)
      rw [Nat.sub_add_cancel hq] at hl
      have := hl _ _ x x' this.1 this.2 this.1 this.2 h1 h2 h3 h4
      rw [add_comm] at this
      exact abs_lip this (sub_self _)
    · rw [if_neg hq, if_neg hq, sub_self, abs_zero]
      exact mul_nonneg hL0 (abs_nonneg _)
  unfold segregationResidual
  have key : x - s0 + dt / pv.getD (cells.getD p 0) 0 * (downwards mob G cells p (fun _ => x) y - fromAbove mob G cells p y (fun _ => x)) -
      (x' - s0 + dt / pv.getD (cells.getD p 0) 0 * (downwards mob G cells p (fun _ => x') y - fromAbove mob G cells p y (fun _ => x'))) =
      (x - x') + dt / pv.getD (cells.getD p 0) 0 * ((downwards mob G cells p (fun _ => x) y - downwards mob G cells p (fun _ => x') y) -
        (fromAbove mob G cells p y (fun _ => x) - fromAbove mob G cells p y (fun _ => x'))) := by ring
  rw [key]
  refine le_trans (abs_add_le _ _) ?_
  rw [abs_mul, abs_of_nonneg hd]
  have t := le_trans (abs_sub (downwards mob G cells p (fun _ => x) y - downwards mob G cells p (fun _ => x') y)
    (fromAbove mob G cells p y (fun _ => x) - fromAbove mob G cells p y (fun _ => x'))) (add_le_add d1 d2)
  have := mul_le_mul_of_nonneg_left t hd
  nlinarith

/-- Small residuals with nearly the right saturations of the neighbours: little water is created or lost. -/
theorem column_balance {pv : List Rat} {dt δ : Rat} (hdt : 0 ≤ dt) (hδ : 0 ≤ δ) (hL0 : 0 ≤ L) (hne : cells ≠ []) (hpv : ∀ p, p < cells.length → 0 < pv.getD (cells.getD p 0) 0)
    (hL : ∀ p, p + 1 < cells.length → LipschitzExchange mob G lo hi L (cells.getD p 0) (cells.getD (p + 1) 0)) {a b : Nat → Rat} {ε : Nat → Rat}
    (hb : ∀ p, p < cells.length → lo (cells.getD p 0) ≤ b (cells.getD p 0) ∧ b (cells.getD p 0) ≤ hi (cells.getD p 0))
    (h : ∀ p, p < cells.length → ∃ y : Nat → Rat,
      (∀ q, q < cells.length → q ≠ p → (lo (cells.getD q 0) ≤ y (cells.getD q 0) ∧ y (cells.getD q 0) ≤ hi (cells.getD q 0)) ∧ |y (cells.getD q 0) - b (cells.getD q 0)| ≤ δ) ∧
      |segregationResidual mob G pv dt cells p (a (cells.getD p 0)) y (b (cells.getD p 0))| ≤ ε p) :
    |∑ p ∈ Finset.range cells.length, pv.getD (cells.getD p 0) 0 * (b (cells.getD p 0) - a (cells.getD p 0))| ≤
      ∑ p ∈ Finset.range cells.length, (pv.getD (cells.getD p 0) 0 * ε p + 2 * dt * L * δ) := by
  have hn : 0 < cells.length := List.length_pos_iff.2 hne
  let H : Nat → Rat := fun p => if p = 0 then 0 else downwards mob G cells (p - 1) b b
  have htel : ∑ p ∈ Finset.range cells.length, (H (p + 1) - H p) = 0 := by
    rw [Finset.sum_range_sub]
    have h1 : H cells.length = 0 := by
      show (if cells.length = 0 then (0 : Rat) else downwards mob G cells (cells.length - 1) b b) = 0
      rw [if_neg (by omega)]
      unfold downwards
      rw [if_neg (by omega)]
    have h0 : H 0 = 0 := if_pos rfl
    rw [h1, h0, sub_zero]
  have key : ∀ p ∈ Finset.range cells.length, |pv.getD (cells.getD p 0) 0 * (b (cells.getD p 0) - a (cells.getD p 0)) + dt * (H (p + 1) - H p)| ≤
      pv.getD (cells.getD p 0) 0 * ε p + 2 * dt * L * δ := by
    intro p hp
    rw [Finset.mem_range] at hp
    obtain ⟨y, hy, hR⟩ := h p hp
    have d1 : |downwards mob G cells p (fun _ => b (cells.getD p 0)) y - H (p + 1)| ≤ L * δ := by
      show |downwards mob G cells p (fun _ => b (cells.getD p 0)) y - (if p + 1 = 0 then 0 else downwards mob G cells (p + 1 - 1) b b)| ≤ L * δ
      rw [if_neg (by omega), Nat.add_sub_cancel]
      unfold downwards
      by_cases hq : p + 1 < cells.length
      · rw [if_pos hq, if_pos hq]
        have h1 := hy (p + 1) hq (by omega)
        have h2 := hb (p + 1) hq
        have h3 := hb p hp
        have := hL p hq (b (cells.getD p 0)) (b (cells.getD p 0)) _ _ h3.1 h3.2 h3.1 h3.2 h1.1.1 h1.1.2 h2.1 h2.2
        rw [sub_self, abs_zero, zero_add] at this
        exact le_trans this (mul_le_mul_of_nonneg_left h1.2 hL0)
      · rw [if_neg hq, if_neg hq, sub_self, abs_zero]
        exact mul_nonneg hL0 hδ
    have d2 : |fromAbove mob G cells p y (fun _ => b (cells.getD p 0)) - H p| ≤ L * δ := by
      show |fromAbove mob G cells p y (fun _ => b (cells.getD p 0)) - (if p = 0 then 0 else downwards mob G cells (p - 1) b b)| ≤ L * δ
      unfold fromAbove downwards
      by_cases hq : 0 < p
      · rw [if_pos hq, if_neg (by omega), Nat.sub_add_cancel hq, if_pos hp]
        have h1 := hy (p - 1) (by omega) (by omega)
        have h2 := hb (p - 1) (by omega)
        have h3 := hb p hp
        have hl := hL (p - 1) (by omega)
        rw [Nat.sub_add_cancel hq] at hl
        have := hl _ _ (b (cells.getD p 0)) (b (cells.getD p 0)) h1.1.1 h1.1.2 h2.1 h2.2 h3.1 h3.2 h3.1 h3.2
        rw [sub_self, abs_zero, add_zero] at this
        exact le_trans this (mul_le_mul_of_nonneg_left h1.2 hL0)
      · rw [if_neg hq, if_pos (by omega), sub_self, abs_zero]
        exact mul_nonneg hL0 hδ
    have hcross := le_trans (abs_sub (downwards mob G cells p (fun _ => b (cells.getD p 0)) y - H (p + 1)) (fromAbove mob G cells p y (fun _ => b (cells.getD p 0)) - H p)) (add_le_add d1 d2)
    have hexp : pv.getD (cells.getD p 0) 0 * (b (cells.getD p 0) - a (cells.getD p 0)) + dt * (H (p + 1) - H p) =
        pv.getD (cells.getD p 0) 0 * segregationResidual mob G pv dt cells p (a (cells.getD p 0)) y (b (cells.getD p 0)) -
          dt * ((downwards mob G cells p (fun _ => b (cells.getD p 0)) y - H (p + 1)) - (fromAbove mob G cells p y (fun _ => b (cells.getD p 0)) - H p)) := by
      unfold segregationResidual
      have := (hpv p hp).ne'
      field_simp
      ring
    rw [hexp]
    refine le_trans (abs_sub _ _) ?_
    rw [abs_mul, abs_mul, abs_of_pos (hpv p hp), abs_of_nonneg hdt]
    have m1 := mul_le_mul_of_nonneg_left hR (hpv p hp).le
    have m2 := mul_le_mul_of_nonneg_left hcross hdt
    linarith
  calc |∑ p ∈ Finset.range cells.length, pv.getD (cells.getD p 0) 0 * (b (cells.getD p 0) - a (cells.getD p 0))|
      = |∑ p ∈ Finset.range cells.length, (pv.getD (cells.getD p 0) 0 * (b (cells.getD p 0) - a (cells.getD p 0)) + dt * (H (p + 1) - H p))| := by
        rw [Finset.sum_add_distrib, ← Finset.mul_sum, htel, mul_zero, add_zero]
    _ ≤ _ := le_trans (Finset.abs_sum_le_sum_abs _ _) (Finset.sum_le_sum key)

end Opm.GravitySegregation
