import Verif.Proofs.Interp
/-!
# C19: uniform tables

A table is `Proper` if its domain is a proper interval, it has at least two values, and the spacing is
that of the domain divided into `length - 1` equal parts.  Constructors and `rescaleDomain` to a proper
interval yield proper tables.
-/

namespace Opm.Interp
open Opm

theorem ratFloor_eq (q : Rat) : q.floor = ⌊q⌋ := rfl

structure UTable.Proper (t : UTable) : Prop where
  dom : t.xmin < t.xmax
  two : 2 ≤ t.ys.length
  delta : t.xdelta = (t.xmax - t.xmin) / ((t.ys.length - 1 : Nat) : Rat)

/-- Position of node `k`. -/
def UTable.node (t : UTable) (k : Nat) : Rat := t.xmin + k * ((t.xmax - t.xmin) / ((t.ys.length - 1 : Nat) : Rat))

/-- The closest point of the domain. -/
def UTable.clamp (t : UTable) (x : Rat) : Rat := if x < t.xmin then t.xmin else if t.xmax < x then t.xmax else x

theorem UTable.clamp_eq {t : UTable} (h : t.xmin < t.xmax) (x : Rat) : max (min x t.xmax) t.xmin = t.clamp x := by
  unfold UTable.clamp
  split
  · rename_i h1
    rw [min_eq_left (by linarith), max_eq_right (by linarith)]
  · split
    · rename_i h1 h2
      rw [min_eq_right (by linarith), max_eq_left (by linarith)]
    · rename_i h1 h2
      rw [min_eq_left (by linarith), max_eq_left (by linarith)]

theorem UTable.clamp_mem {t : UTable} (h : t.xmin < t.xmax) (x : Rat) : t.xmin ≤ t.clamp x ∧ t.clamp x ≤ t.xmax := by
  unfold UTable.clamp
  split
  · exact ⟨le_refl _, le_of_lt h⟩
  · split
    · exact ⟨le_of_lt h, le_refl _⟩
    · constructor <;> linarith

/-- **C19, construction.** The constructor succeeds exactly for proper data. -/
theorem uniform_new (xmin xmax : Rat) (ys : List Rat) :
    (∃ t, UTable.new xmin xmax ys = .ok t) ↔ (xmin < xmax ∧ 2 ≤ ys.length) := by
  unfold UTable.new
  by_cases h1 : xmax > xmin
  · rw [check_ok (by simpa using h1), bind_ok]
    by_cases h2 : ys.length > 1
    · rw [check_ok (by simpa using h2), bind_ok, fdiv_ok, bind_ok]
      · exact ⟨fun _ => ⟨h1, h2⟩, fun _ => ⟨_, rfl⟩⟩
      · have : 0 < ys.length - 1 := by omega
        exact_mod_cast Nat.pos_iff_ne_zero.1 this
    · simp only [check, decide_eq_true_eq, if_neg h2, bind_error]
      constructor
      · rintro ⟨t, h⟩; cases h
      · rintro ⟨_, h⟩; omega
  · simp only [check, decide_eq_true_eq, if_neg h1, bind_error]
    constructor
    · rintro ⟨t, h⟩; cases h
    · rintro ⟨h, _⟩; exact absurd h h1

theorem uniform_new_proper {xmin xmax : Rat} {ys : List Rat} {t : UTable} (h : UTable.new xmin xmax ys = .ok t) :
    t.Proper ∧ t.xmin = xmin ∧ t.xmax = xmax ∧ t.ys = ys ∧ t.left = .closestValue ∧ t.right = .closestValue := by
  obtain ⟨h1, h2⟩ := (uniform_new xmin xmax ys).1 ⟨t, h⟩
  unfold UTable.new at h
  rw [check_ok (by simpa using h1), bind_ok, check_ok (by simp; omega), bind_ok, fdiv_ok, bind_ok] at h
  · cases h
    exact ⟨⟨h1, h2, rfl⟩, rfl, rfl, rfl, rfl, rfl⟩
  · have : 0 < ys.length - 1 := by omega
    exact_mod_cast Nat.pos_iff_ne_zero.1 this

/-- **C19, rescaling** to a proper interval keeps the values and yields a proper table on the new domain. -/
theorem uniform_rescale (t : UTable) (ht : t.Proper) (c d : Rat) (hcd : c < d) :
    ∃ t', t.rescaleDomain (c, d) = .ok t' ∧ t'.Proper ∧ t'.xmin = c ∧ t'.xmax = d ∧ t'.ys = t.ys := by
  have h2 := ht.two
  unfold UTable.rescaleDomain
  rw [fdiv_ok, bind_ok]
  · exact ⟨_, rfl, ⟨hcd, h2, rfl⟩, rfl, rfl, rfl⟩
  · have : 0 < t.ys.length - 1 := by omega
    exact_mod_cast Nat.pos_iff_ne_zero.1 this

theorem uniform_locate {t : UTable} (ht : t.Proper) (x : Rat) :
    0 < t.xdelta ∧ t.locate x = .ok ((t.clamp x - t.xmin) / t.xdelta, ((t.clamp x - t.xmin) / t.xdelta).floor) ∧
      0 ≤ (t.clamp x - t.xmin) / t.xdelta ∧ (t.clamp x - t.xmin) / t.xdelta ≤ ((t.ys.length - 1 : Nat) : Rat) := by
  have h2 := ht.two
  have hn : (0 : Rat) < ((t.ys.length - 1 : Nat) : Rat) := by
    have : 0 < t.ys.length - 1 := by omega
    exact_mod_cast this
  have hdom := ht.dom
  have hd : 0 < t.xdelta := by rw [ht.delta]; exact div_pos (by linarith) hn
  obtain ⟨c1, c2⟩ := UTable.clamp_mem hdom x
  refine ⟨hd, ?_, div_nonneg (by linarith) (le_of_lt hd), ?_⟩
  · unfold UTable.locate
    simp only
    rw [UTable.clamp_eq hdom, fdiv_ok (ne_of_gt hd), bind_ok]
  · rw [div_le_iff₀ hd, ht.delta]
    field_simp
    linarith

/-- **C19, evaluation.** For every argument the evaluation succeeds (no access outside the values), and
if node `k` and `k+1` enclose the closest domain point of `x`, the value is the corresponding weighted
mean of the two node values. -/
theorem uniform_eval (t : UTable) (ht : t.Proper) (x : Rat) (k : Nat) (y0 y1 : Rat) (h0 : t.ys[k]? = some y0) (h1 : t.ys[k + 1]? = some y1)
    (hlo : t.node k ≤ t.clamp x) (hhi : t.clamp x ≤ t.node (k + 1)) :
    ∃ w v, 0 ≤ w ∧ w ≤ 1 ∧ t.clamp x = (1 - w) * t.node k + w * t.node (k + 1) ∧ v = (1 - w) * y0 + w * y1 ∧ t.eval x = .ok v ∧
      min y0 y1 ≤ v ∧ v ≤ max y0 y1 := by
  obtain ⟨hd, hloc, hp0, hp1⟩ := uniform_locate ht x
  have hk := (List.getElem?_eq_some_iff.1 h1).1
  unfold UTable.node at hlo hhi ⊢
  rw [← ht.delta] at hlo hhi ⊢
  have hc : t.clamp x = t.xmin + (t.clamp x - t.xmin) / t.xdelta * t.xdelta := by field_simp; ring
  unfold UTable.eval
  rw [hloc, bind_ok]
  simp only
  generalize (t.clamp x - t.xmin) / t.xdelta = pos at *
  have hpk : (k : Rat) ≤ pos := by
    rw [hc] at hlo
    have : (k : Rat) * t.xdelta ≤ pos * t.xdelta := by linarith
    exact le_of_mul_le_mul_right this hd
  have hpk1 : pos ≤ (k : Rat) + 1 := by
    rw [hc] at hhi
    push_cast at hhi
    have : pos * t.xdelta ≤ ((k : Rat) + 1) * t.xdelta := by linarith
    exact le_of_mul_le_mul_right this hd
  have hmean : ∀ w : Rat, 0 ≤ w → w ≤ 1 → min y0 y1 ≤ (1 - w) * y0 + w * y1 ∧ (1 - w) * y0 + w * y1 ≤ max y0 y1 := by
    intro w hw0 hw1
    have := min_le_left y0 y1
    have := min_le_right y0 y1
    have := le_max_left y0 y1
    have := le_max_right y0 y1
    constructor <;> nlinarith
  refine ⟨pos - k, (1 - (pos - k)) * y0 + (pos - k) * y1, by linarith, by linarith, ?_, rfl, ?_, hmean _ (by linarith) (by linarith)⟩
  · rw [hc]; push_cast; ring
  rcases lt_or_eq_of_le hpk1 with hlt | heq
  · have hfl : pos.floor = (k : Int) := by
      rw [ratFloor_eq]
      rw [Int.floor_eq_iff]
      exact ⟨by exact_mod_cast hpk, by exact_mod_cast hlt⟩
    rw [hfl, if_neg (by omega)]
    rw [rdI_natCast, rd_of_getElem? h0, bind_ok, show ((k : Int) + 1) = ((k + 1 : Nat) : Int) by push_cast; ring, rdI_natCast,
      rd_of_getElem? h1, bind_ok]
    simp
  · have hfl : pos.floor = ((k + 1 : Nat) : Int) := by
      rw [ratFloor_eq]
      rw [Int.floor_eq_iff]
      push_cast
      exact ⟨by linarith, by linarith⟩
    have hval : (1 - (pos - k)) * y0 + (pos - k) * y1 = y1 := by rw [heq]; ring
    rw [hval, hfl]
    by_cases hend : ((k + 1 : Nat) : Int) = (t.ys.length : Int) - 1
    · rw [if_pos hend]
      have : t.ys.length - 1 = k + 1 := by omega
      unfold back
      rw [this, rd_of_getElem? h1]
    · rw [if_neg hend]
      have hk2 : k + 2 < t.ys.length := by omega
      rw [rdI_natCast, rd_of_getElem? h1, bind_ok, show (((k + 1 : Nat) : Int) + 1) = ((k + 2 : Nat) : Int) by push_cast; ring,
        rdI_natCast, rd_of_getElem? (List.getElem?_eq_getElem hk2), bind_ok]
      congr 1
      rw [heq]
      push_cast
      ring

/-- Every argument is covered by `uniform_eval`. -/
theorem uniform_covered (t : UTable) (ht : t.Proper) (x : Rat) :
    ∃ k, k + 1 < t.ys.length ∧ t.node k ≤ t.clamp x ∧ t.clamp x ≤ t.node (k + 1) := by
  obtain ⟨hd, _, hp0, hp1⟩ := uniform_locate ht x
  have h2 := ht.two
  have hc : t.clamp x = t.xmin + (t.clamp x - t.xmin) / t.xdelta * t.xdelta := by field_simp; ring
  unfold UTable.node
  rw [← ht.delta]
  generalize (t.clamp x - t.xmin) / t.xdelta = pos at *
  obtain ⟨k, hk1, hk2, hk3⟩ : ∃ k : Nat, k + 1 < t.ys.length ∧ (k : Rat) ≤ pos ∧ pos ≤ (k : Rat) + 1 := by
    have hfl0 : 0 ≤ pos.floor := by rw [ratFloor_eq]; exact Int.floor_nonneg.2 hp0
    obtain ⟨m, hm⟩ : ∃ m : Nat, pos.floor = m := ⟨pos.floor.toNat, by omega⟩
    have h3 : (m : Rat) ≤ pos := by
      have := Int.floor_le pos
      rw [← ratFloor_eq, hm] at this
      exact_mod_cast this
    have h4 : pos < (m : Rat) + 1 := by
      have := Int.lt_floor_add_one pos
      rw [← ratFloor_eq, hm] at this
      exact_mod_cast this
    by_cases hlt : m + 1 < t.ys.length
    · exact ⟨m, hlt, h3, le_of_lt h4⟩
    · have h5 : (m : Rat) ≤ ((t.ys.length - 1 : Nat) : Rat) := le_trans h3 hp1
      have h6 : m ≤ t.ys.length - 1 := by exact_mod_cast h5
      obtain rfl : m = t.ys.length - 1 := by omega
      refine ⟨t.ys.length - 2, by omega, ?_, ?_⟩
      · have : ((t.ys.length - 2 : Nat) : Rat) ≤ ((t.ys.length - 1 : Nat) : Rat) := by
          have : t.ys.length - 2 ≤ t.ys.length - 1 := by omega
          exact_mod_cast this
        linarith
      · have : ((t.ys.length - 1 : Nat) : Rat) = ((t.ys.length - 2 : Nat) : Rat) + 1 := by
          have : t.ys.length - 1 = (t.ys.length - 2) + 1 := by omega
          rw [this]; push_cast; rfl
        linarith
  refine ⟨k, hk1, ?_, ?_⟩
  · rw [hc]
    have := mul_le_mul_of_nonneg_right hk2 (le_of_lt hd)
    linarith
  · rw [hc]
    have := mul_le_mul_of_nonneg_right hk3 (le_of_lt hd)
    push_cast
    linarith

/-- **C19, nodes.** Evaluation at node `k` gives value `k`. -/
theorem uniform_node (t : UTable) (ht : t.Proper) (k : Nat) (y : Rat) (hy : t.ys[k]? = some y) : t.eval (t.node k) = .ok y := by
  have h2 := ht.two
  have hk := (List.getElem?_eq_some_iff.1 hy).1
  have hdom := ht.dom
  have hn : (0 : Rat) < ((t.ys.length - 1 : Nat) : Rat) := by
    have : 0 < t.ys.length - 1 := by omega
    exact_mod_cast this
  have hstep : 0 < (t.xmax - t.xmin) / ((t.ys.length - 1 : Nat) : Rat) := div_pos (by linarith) hn
  have hclamp : t.clamp (t.node k) = t.node k := by
    have e1 : t.xmin ≤ t.node k := by
      unfold UTable.node
      have : (0 : Rat) ≤ k := by exact_mod_cast Nat.zero_le k
      have := mul_nonneg this (le_of_lt hstep)
      linarith
    have e2 : t.node k ≤ t.xmax := by
      unfold UTable.node
      have h3 : (k : Rat) ≤ ((t.ys.length - 1 : Nat) : Rat) := by
        have : k ≤ t.ys.length - 1 := by omega
        exact_mod_cast this
      have := mul_le_mul_of_nonneg_right h3 (le_of_lt hstep)
      have h4 : ((t.ys.length - 1 : Nat) : Rat) * ((t.xmax - t.xmin) / ((t.ys.length - 1 : Nat) : Rat)) = t.xmax - t.xmin := by field_simp
      linarith
    unfold UTable.clamp
    rw [if_neg (by linarith), if_neg (by linarith)]
  have hnode : ∀ j : Nat, t.node (j + 1) = t.node j + (t.xmax - t.xmin) / ((t.ys.length - 1 : Nat) : Rat) := by
    intro j; unfold UTable.node; push_cast; ring
  by_cases hlast : k + 1 < t.ys.length
  · obtain ⟨w, v, hw0, hw1, hx, hv, he, _⟩ := uniform_eval t ht (t.node k) k y _ hy (List.getElem?_eq_getElem hlast)
      (by rw [hclamp]) (by rw [hclamp, hnode]; linarith)
    rw [hclamp, hnode] at hx
    have hw : w * ((t.xmax - t.xmin) / ((t.ys.length - 1 : Nat) : Rat)) = 0 := by linarith
    rcases mul_eq_zero.1 hw with h | h
    · rw [he, hv, h]; congr 1; ring
    · linarith
  · obtain ⟨j, rfl⟩ : ∃ j, k = j + 1 := ⟨k - 1, by omega⟩
    have hj : j < t.ys.length := by omega
    obtain ⟨w, v, hw0, hw1, hx, hv, he, _⟩ := uniform_eval t ht (t.node (j + 1)) j _ y (List.getElem?_eq_getElem hj) hy
      (by rw [hclamp, hnode]; linarith) (by rw [hclamp])
    rw [hclamp, hnode] at hx
    have hw : (1 - w) * ((t.xmax - t.xmin) / ((t.ys.length - 1 : Nat) : Rat)) = 0 := by linarith
    rcases mul_eq_zero.1 hw with h | h
    · have : w = 1 := by linarith
      rw [he, hv, this]; congr 1; ring
    · linarith

/-- **C19, outside the domain** the value is that of the closest end point. -/
theorem uniform_outside (t : UTable) (ht : t.Proper) (x : Rat) :
    (x ≤ t.xmin → ∀ y, t.ys[0]? = some y → t.eval x = .ok y) ∧
      (t.xmax ≤ x → ∀ y, t.ys[t.ys.length - 1]? = some y → t.eval x = .ok y) := by
  have hdom := ht.dom
  have h2 := ht.two
  have hcl : ∀ x', t.clamp x' = t.clamp x → t.eval x = t.eval x' := by
    intro x' h
    unfold UTable.eval UTable.locate
    simp only
    rw [UTable.clamp_eq hdom, UTable.clamp_eq hdom, h]
  have hn : (0 : Rat) < ((t.ys.length - 1 : Nat) : Rat) := by
    have : 0 < t.ys.length - 1 := by omega
    exact_mod_cast this
  constructor
  · intro hx y hy
    rw [← uniform_node t ht 0 y hy]
    apply hcl
    have : t.node 0 = t.xmin := by unfold UTable.node; simp
    rw [this]
    unfold UTable.clamp
    rw [if_neg (by linarith), if_neg (by linarith)]
    rcases lt_or_eq_of_le hx with h | h
    · rw [if_pos h]
    · rw [if_neg (by linarith), if_neg (by linarith), h]
  · intro hx y hy
    rw [← uniform_node t ht _ y hy]
    apply hcl
    have : t.node (t.ys.length - 1) = t.xmax := by unfold UTable.node; field_simp; ring
    rw [this]
    unfold UTable.clamp
    rw [if_neg (by linarith), if_neg (by linarith), if_neg (by linarith)]
    rcases lt_or_eq_of_le hx with h | h
    · rw [if_pos h]
    · rw [if_neg (by linarith), h]

/-- **C19, derivative.** Zero outside the domain; on interval `k`, its right end excluded unless it is the
last one, it is the slope there.  (Every point of the domain is covered.) -/
theorem uniform_derivative (t : UTable) (ht : t.Proper) (x : Rat) :
    (x < t.xmin ∨ t.xmax < x → t.derivative x = .ok 0) ∧
      ∀ (k : Nat) y0 y1, t.ys[k]? = some y0 → t.ys[k + 1]? = some y1 → t.node k ≤ x →
        (x < t.node (k + 1) ∨ k + 2 = t.ys.length ∧ x = t.node (k + 1)) →
        t.derivative x = .ok ((y1 - y0) / (t.node (k + 1) - t.node k)) := by
  constructor
  · intro h
    unfold UTable.derivative
    rw [if_pos h.symm]
  · intro k y0 y1 h0 h1 hlo hhi
    obtain ⟨hd, hloc, hp0, hp1⟩ := uniform_locate ht x
    have hk := (List.getElem?_eq_some_iff.1 h1).1
    have h2 := ht.two
    have hdom := ht.dom
    have hn : (0 : Rat) < ((t.ys.length - 1 : Nat) : Rat) := by
      have : 0 < t.ys.length - 1 := by omega
      exact_mod_cast this
    have hdel : ((t.ys.length - 1 : Nat) : Rat) * t.xdelta = t.xmax - t.xmin := by rw [ht.delta]; field_simp
    unfold UTable.node at hlo hhi ⊢
    rw [← ht.delta] at hlo hhi ⊢
    have hhi' : x ≤ t.xmin + ((k + 1 : Nat) : Rat) * t.xdelta := by
      rcases hhi with h | h
      · exact le_of_lt h
      · exact le_of_eq h.2
    have hin : t.xmin ≤ x ∧ x ≤ t.xmax := by
      have h3 : ((k : Rat) + 1) ≤ ((t.ys.length - 1 : Nat) : Rat) := by
        have : k + 1 ≤ t.ys.length - 1 := by omega
        exact_mod_cast this
      have h4 := mul_le_mul_of_nonneg_right h3 (le_of_lt hd)
      have h5 : (0 : Rat) ≤ k * t.xdelta := mul_nonneg (by exact_mod_cast Nat.zero_le k) (le_of_lt hd)
      push_cast at hhi'
      constructor <;> linarith
    have hcl : t.clamp x = x := by
      unfold UTable.clamp
      rw [if_neg (by linarith), if_neg (by linarith)]
    have hleft : ∀ j : Int, (j = (t.ys.length : Int) - 1 ∧ j = k + 1 ∨ j = k ∧ j ≠ (t.ys.length : Int) - 1) →
        (if j = (t.ys.length : Int) - 1 then j - 1 else j) = (k : Int) := by
      intro j hj
      split <;> omega
    have hfl : (if ((t.clamp x - t.xmin) / t.xdelta).floor = (t.ys.length : Int) - 1 then ((t.clamp x - t.xmin) / t.xdelta).floor - 1
        else ((t.clamp x - t.xmin) / t.xdelta).floor) = (k : Int) := by
      apply hleft
      rw [ratFloor_eq, hcl]
      rcases hhi with h | ⟨h, h'⟩
      · right
        have : ⌊(x - t.xmin) / t.xdelta⌋ = (k : Int) := by
          rw [Int.floor_eq_iff]
          push_cast at h ⊢
          exact ⟨by rw [le_div_iff₀ hd]; linarith, by rw [div_lt_iff₀ hd]; linarith⟩
        rw [this]
        omega
      · left
        have : ⌊(x - t.xmin) / t.xdelta⌋ = ((k + 1 : Nat) : Int) := by
          rw [h', show (t.xmin + ((k + 1 : Nat) : Rat) * t.xdelta - t.xmin) / t.xdelta = ((k + 1 : Nat) : Rat) by field_simp; ring]
          exact Int.floor_natCast _
        rw [this]
        omega
    unfold UTable.derivative
    rw [if_neg (by push Not; exact ⟨hin.2, hin.1⟩), hloc, bind_ok]
    simp only
    rw [hfl, show ((k : Int) + 1) = ((k + 1 : Nat) : Int) by push_cast; ring, rdI_natCast, rdI_natCast, rd_of_getElem? h0,
      rd_of_getElem? h1, bind_ok, bind_ok, fdiv_ok (ne_of_gt hd)]
    congr 2
    push_cast
    ring

/-- **C19, policies.** Only the closest-value policy can be selected; selecting it changes nothing about
evaluation, any other choice is refused. -/
theorem uniform_policy (t : UTable) (rp : RangePolicy) :
    (rp = .closestValue → ∃ t1 t2, t.setLeftPolicy rp = .ok t1 ∧ t.setRightPolicy rp = .ok t2 ∧
      (∀ x, t1.eval x = t.eval x) ∧ ∀ x, t2.eval x = t.eval x) ∧
    (rp ≠ .closestValue → t.setLeftPolicy rp = .error .thrown ∧ t.setRightPolicy rp = .error .thrown) := by
  unfold UTable.setLeftPolicy UTable.setRightPolicy
  constructor
  · intro h
    rw [if_neg (by simp [h]), if_neg (by simp [h])]
    exact ⟨_, _, rfl, rfl, fun _ => rfl, fun _ => rfl⟩
  · intro h
    rw [if_pos h, if_pos h]
    exact ⟨rfl, rfl⟩

/-- Two tables the constructor makes that compare equal are the same table (`operator==` does not look at
`xmax`, but it is determined by the other members). -/
theorem uniform_beq_iff (s t : UTable) (hs : s.Proper) (ht : t.Proper) : s.beq t = true ↔ s = t := by
  unfold UTable.beq
  constructor
  · intro h
    simp only [Bool.and_eq_true, beq_iff_eq] at h
    obtain ⟨⟨⟨⟨h1, h2⟩, h3⟩, h4⟩, h5⟩ := h
    have hn : ((s.ys.length - 1 : Nat) : Rat) ≠ 0 := by
      have h6 := hs.two
      have : 0 < s.ys.length - 1 := by omega
      exact_mod_cast Nat.pos_iff_ne_zero.1 this
    have e1 : s.xdelta * ((s.ys.length - 1 : Nat) : Rat) = s.xmax - s.xmin := by rw [hs.delta]; field_simp
    have hn' : ((t.ys.length - 1 : Nat) : Rat) ≠ 0 := by rw [← h3]; exact hn
    have e2 : t.xdelta * ((t.ys.length - 1 : Nat) : Rat) = t.xmax - t.xmin := by rw [ht.delta]; field_simp
    have e3 : s.xmax = t.xmax := by rw [h2, h3, e2, h1] at e1; linarith
    cases s; cases t
    simp only at *
    subst h1 h2 h3 h4 h5 e3
    rfl
  · rintro rfl
    simp

example : ∃ t, UTable.new 1 3 [4, 0, 5] = .ok t ∧ t.eval 2 = .ok 0 ∧ t.eval (5 / 2) = .ok (5 / 2) ∧ t.eval 7 = .ok 5 ∧
    t.derivative (3 / 2) = .ok (-4) :=
  ⟨⟨1, 3, 1, [4, 0, 5], .closestValue, .closestValue⟩, by decide +kernel, by decide +kernel, by decide +kernel, by decide +kernel,
    by decide +kernel⟩

end Opm.Interp
