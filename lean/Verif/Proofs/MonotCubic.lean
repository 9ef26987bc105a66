import Verif.Model.MonotCubic
import Verif.Spec.MonotCubic
import Mathlib.Tactic.Linarith
import Mathlib.Tactic.FieldSimp
import Mathlib.Tactic.Ring
import Mathlib.Tactic.LinearCombination
import Mathlib.Tactic.Positivity
import Mathlib.Data.List.Sort
/-! # Lemmas about the monotone cubic interpolator -/

set_option linter.unusedSectionVars false

namespace Opm.MonotCubic
open Opm Spec

variable {K : Type} [Field K] [LinearOrder K]

theorem kdiv_ok {a b : K} (h : b ≠ 0) : kdiv a b = .ok (a / b) := by simp [kdiv, h]

/-! ### Maps -/

/-- The keys of a map. -/
def keys (m : List (K × K)) : List K := m.map (·.1)

/-- The entries of a map are in strict key order. -/
def Asc (m : List (K × K)) : Prop := (keys m).Pairwise (· < ·)

theorem find_put (k v k' : K) (m : List (K × K)) :
    find k' (put k v m) = if k' = k then some v else find k' m := by
  induction m with
  | nil => simp [put, find]
  | cons p m ih =>
    simp only [put]
    by_cases h1 : k < p.1
    · simp only [if_pos h1, find]
    · simp only [if_neg h1]
      by_cases h2 : k = p.1
      · subst h2
        rw [if_pos rfl]
        by_cases h3 : k' = p.1 <;> simp [find, h3]
      · simp only [if_neg h2, find, ih]
        by_cases h3 : k' = p.1
        · simp [h3, Ne.symm h2]
        · simp [h3]

theorem mem_keys_put (k v k' : K) (m : List (K × K)) :
    k' ∈ keys (put k v m) ↔ k' = k ∨ k' ∈ keys m := by
  induction m with
  | nil => simp [put, keys]
  | cons p m ih =>
    simp only [put]
    by_cases h1 : k < p.1
    · simp [if_pos h1, keys]
    · simp only [if_neg h1]
      by_cases h2 : k = p.1
      · simp [keys, ← h2]
      · simp only [if_neg h2]
        have : k' ∈ keys (p :: put k v m) ↔ k' = p.1 ∨ k' ∈ keys (put k v m) := by simp [keys]
        rw [this, ih]
        simp only [keys, List.map_cons, List.mem_cons]
        tauto

theorem asc_put (k v : K) {m : List (K × K)} (h : Asc m) : Asc (put k v m) := by
  induction m with
  | nil => simp [put, Asc, keys]
  | cons p m ih =>
    have hp : (∀ a ∈ keys m, p.1 < a) ∧ Asc m := by
      simpa [Asc, keys] using h
    simp only [put]
    by_cases h1 : k < p.1
    · simp only [if_pos h1]
      have : (∀ a ∈ keys (p :: m), k < a) ∧ Asc (p :: m) := by
        refine ⟨fun a ha => ?_, h⟩
        simp only [keys, List.map_cons, List.mem_cons] at ha
        rcases ha with rfl | ha
        · exact h1
        · exact h1.trans (hp.1 a ha)
      simpa [Asc, keys] using this
    · simp only [if_neg h1]
      by_cases h2 : k = p.1
      · simp only [if_pos h2]
        subst h2
        simpa [Asc, keys] using h
      · simp only [if_neg h2]
        have : (∀ a ∈ keys (put k v m), p.1 < a) ∧ Asc (put k v m) := by
          refine ⟨fun a ha => ?_, ih hp.2⟩
          rcases (mem_keys_put k v a m).1 ha with rfl | ha
          · exact lt_of_le_of_ne (not_lt.1 h1) (Ne.symm h2)
          · exact hp.1 a ha
        simpa [Asc, keys] using this

theorem find_isSome (k : K) (m : List (K × K)) : (∃ v, find k m = some v) ↔ k ∈ keys m := by
  induction m with
  | nil => simp [find, keys]
  | cons p m ih =>
    simp only [find]
    by_cases h : k = p.1
    · simp [h, keys]
    · simp only [if_neg h, ih]
      simp [keys, h]

theorem keys_put (k v : K) {m : List (K × K)} (ha : Asc m) (hk : k ∈ keys m) :
    keys (put k v m) = keys m := by
  apply List.Pairwise.eq_of_mem_iff (r := (· < ·)) (asc_put k v ha) ha
  intro a
  rw [mem_keys_put]
  constructor
  · rintro (rfl | h)
    · exact hk
    · exact h
  · exact Or.inr

theorem fetch_some {m : List (K × K)} {k v : K} (h : find k m = some v) : fetch m k = (v, m) := by
  simp [fetch, h]

/-- In a map with ordered keys, membership is lookup. -/
theorem mem_iff_find {m : List (K × K)} (ha : Asc m) (k v : K) : (k, v) ∈ m ↔ find k m = some v := by
  induction m with
  | nil => simp [find]
  | cons p m ih =>
    have hp : (∀ a ∈ keys m, p.1 < a) ∧ Asc m := by
      simpa [Asc, keys] using ha
    simp only [find, List.mem_cons]
    by_cases h : k = p.1
    · simp only [if_pos h]
      constructor
      · rintro (e | hm)
        · rw [← e]
        · exact absurd (hp.1 k (List.mem_map.2 ⟨(k, v), hm, rfl⟩)) (by rw [h]; exact lt_irrefl _)
      · intro e
        left
        cases p
        simp only [Option.some.injEq] at e h
        rw [h, e]
    · simp only [if_neg h, ← ih hp.2]
      constructor
      · rintro (e | hm)
        · exact absurd (by rw [← e]) h
        · exact hm
      · exact Or.inr

/-! ### Points by index -/

theorem pt_get {l : List (K × K)} {i : Nat} (h : i < l.length) : l[i]? = some (pt l i) := by
  simp [pt, h]

theorem rd_pt {l : List (K × K)} {i : Nat} (h : i < l.length) : rd l i = .ok (pt l i) :=
  rd_of_getElem? (pt_get h)

theorem pt_of_get {l : List (K × K)} {i : Nat} {p : K × K} (h : l[i]? = some p) : pt l i = p := by
  simp [pt, h]

theorem pt_mem {l : List (K × K)} {i : Nat} (h : i < l.length) : pt l i ∈ l :=
  List.mem_of_getElem? (pt_get h)

theorem pt_lt {l : List (K × K)} (ha : Asc l) {i j : Nat} (hij : i < j) (hj : j < l.length) :
    (pt l i).1 < (pt l j).1 := by
  have hi : i < l.length := by omega
  have := List.pairwise_iff_getElem.1 ha i j (by simpa [keys] using hi) (by simpa [keys] using hj) hij
  simpa [keys, pt, hi, hj] using this

theorem pt_le {l : List (K × K)} (ha : Asc l) {i j : Nat} (hij : i ≤ j) (hj : j < l.length) :
    (pt l i).1 ≤ (pt l j).1 := by
  rcases Nat.lt_or_eq_of_le hij with h | h
  · exact (pt_lt ha h hj).le
  · rw [h]

theorem pt_inj {l : List (K × K)} (ha : Asc l) {i j : Nat} (hi : i < l.length) (hj : j < l.length)
    (h : (pt l i).1 = (pt l j).1) : i = j := by
  rcases Nat.lt_trichotomy i j with h1 | h1 | h1
  · exact absurd h (pt_lt ha h1 hj).ne
  · exact h1
  · exact absurd h (pt_lt ha h1 hi).ne'

theorem mem_keys_pt {l : List (K × K)} {k : K} : k ∈ keys l ↔ ∃ j, j < l.length ∧ (pt l j).1 = k := by
  constructor
  · intro h
    obtain ⟨p, hp, rfl⟩ := List.mem_map.1 h
    obtain ⟨j, hj⟩ := List.mem_iff_getElem?.1 hp
    have hl : j < l.length := by
      rcases Nat.lt_or_ge j l.length with h | h
      · exact h
      · rw [List.getElem?_eq_none h] at hj; cases hj
    exact ⟨j, hl, by rw [pt_of_get hj]⟩
  · rintro ⟨j, hj, rfl⟩
    exact List.mem_map.2 ⟨_, pt_mem hj, rfl⟩

variable [IsStrictOrderedRing K]

theorem slope_ok {p q : K × K} (h : p.1 < q.1) : slope p q = .ok (chord p q) :=
  kdiv_ok (sub_ne_zero.2 h.ne')

/-! ### Simple derivatives -/

/-- Loop invariant of the interior derivatives: the ends and the first `k` interior points are done. -/
structure Simple (l : List (K × K)) (k : Nat) (d : List (K × K)) : Prop where
  asc : Asc d
  from_data : ∀ x ∈ keys d, x ∈ keys l
  done : ∀ j, j < l.length → (j = 0 ∨ j + 1 = l.length ∨ j ≤ k) → find (pt l j).1 d = some (meanSlope l j)

theorem simple_put {l d : List (K × K)} {k k' j : Nat} (ha : Asc l) (hj : j < l.length) (h : Simple l k d)
    (hk : ∀ i, i < l.length → i ≤ k' → i = j ∨ i ≤ k) :
    Simple l k' (put (pt l j).1 (meanSlope l j) d) := by
  refine ⟨asc_put _ _ h.asc, ?_, ?_⟩
  · intro x hx
    rcases (mem_keys_put _ _ _ _).1 hx with rfl | hx
    · exact mem_keys_pt.2 ⟨j, hj, rfl⟩
    · exact h.from_data x hx
  · intro i hi hd
    rw [find_put]
    by_cases e : (pt l i).1 = (pt l j).1
    · rw [if_pos e, pt_inj ha hi hj e]
    · rw [if_neg e]
      refine h.done i hi ?_
      rcases hd with hd | hd | hd
      · exact Or.inl hd
      · exact Or.inr (Or.inl hd)
      · rcases hk i hi hd with rfl | h'
        · exact absurd rfl e
        · exact Or.inr (Or.inr h')

theorem innerStep_ok {l d : List (K × K)} {i : Nat} (ha : Asc l) (h1 : 1 ≤ i) (hn : i + 1 < l.length)
    (h : Simple l (i - 1) d) : ∃ d', innerStep l i d = .ok d' ∧ Simple l i d' := by
  unfold innerStep
  have hl := pt_lt ha (i := i - 1) (j := i) (by omega) (by omega)
  have hr := pt_lt ha (i := i) (j := i + 1) (by omega) hn
  rw [rd_pt (by omega : i - 1 < l.length), bind_ok, rd_pt (by omega : i < l.length), bind_ok, rd_pt hn, bind_ok,
    kdiv_ok (mul_ne_zero two_ne_zero (sub_ne_zero.2 hr.ne')), bind_ok,
    kdiv_ok (mul_ne_zero two_ne_zero (sub_ne_zero.2 hl.ne')), bind_ok]
  refine ⟨_, rfl, ?_⟩
  have e : ((pt l (i + 1)).2 - (pt l i).2) / (2 * ((pt l (i + 1)).1 - (pt l i).1))
      + ((pt l i).2 - (pt l (i - 1)).2) / (2 * ((pt l i).1 - (pt l (i - 1)).1)) = meanSlope l i := by
    unfold meanSlope
    rw [if_neg (by omega), if_neg (by omega)]
    unfold chord
    have a1 := sub_ne_zero.2 hl.ne'
    have a2 := sub_ne_zero.2 hr.ne'
    field_simp
    ring
  rw [e]
  exact simple_put ha (by omega) h (fun j _ hj => by omega)

/-- The interior loop. -/
theorem inner_ok {l d : List (K × K)} (ha : Asc l) (h2 : 2 < l.length) (h : Simple l 0 d) :
    ∃ d', forRange 1 (l.length - 1) (innerStep l) d = .ok d' ∧ Simple l (l.length - 2) d' := by
  unfold forRange
  have := loop_inv (n := l.length - 1 - 1) (f := fun k s => innerStep l (1 + k) s) (s := d)
    (fun k d => Simple l k d) h (by
      intro i t hi hP
      obtain ⟨d', e, hd⟩ := innerStep_ok (i := 1 + i) ha (by omega) (by omega)
        (by rwa [show 1 + i - 1 = i by omega])
      exact ⟨d', e, by rwa [show i + 1 = 1 + i by omega]⟩)
  obtain ⟨d', e, hd⟩ := this
  exact ⟨d', e, by rwa [show l.length - 2 = l.length - 1 - 1 by omega]⟩

theorem simple_two {l : List (K × K)} {k : Nat} {d : List (K × K)} (ha : Asc l) (h2 : 2 ≤ l.length)
    (h : Simple l k d) (hk : l.length - 2 ≤ k) :
    keys d = keys l ∧ ∀ j, j < l.length → find (pt l j).1 d = some (meanSlope l j) := by
  have hf : ∀ j, j < l.length → find (pt l j).1 d = some (meanSlope l j) := fun j hj =>
    h.done j hj (by omega)
  refine ⟨?_, hf⟩
  apply List.Pairwise.eq_of_mem_iff (r := (· < ·)) h.asc ha
  intro x
  constructor
  · exact h.from_data x
  · intro hx
    obtain ⟨j, hj, rfl⟩ := mem_keys_pt.1 hx
    exact (find_isSome _ _).1 ⟨_, hf j hj⟩

/-- `computeSimpleDerivatives` stores the mean slope at every data point, and nothing else. -/
theorem simpleDerivatives_ok {l : List (K × K)} (ha : Asc l) (h2 : 2 ≤ l.length) :
    ∃ d, simpleDerivatives l = .ok d ∧ keys d = keys l ∧
      ∀ j, j < l.length → find (pt l j).1 d = some (meanSlope l j) := by
  unfold simpleDerivatives
  have h01 := pt_lt ha (i := 0) (j := 1) (by omega) (by omega)
  have hnn := pt_lt ha (i := l.length - 2) (j := l.length - 1) (by omega) (by omega)
  rw [rd_pt (by omega : 0 < l.length), bind_ok, rd_pt (by omega : 1 < l.length), bind_ok, slope_ok h01, bind_ok]
  rw [rd_pt (by omega : l.length - 2 < l.length), bind_ok, rd_pt (by omega : l.length - 1 < l.length), bind_ok,
    slope_ok hnn, bind_ok]
  have e0 : chord (pt l 0) (pt l 1) = meanSlope l 0 := by simp [meanSlope]
  have en : chord (pt l (l.length - 2)) (pt l (l.length - 1)) = meanSlope l (l.length - 1) := by
    unfold meanSlope
    rw [if_neg (by omega), if_pos (by omega), show l.length - 1 - 1 = l.length - 2 by omega]
  rw [e0, en]
  have h : Simple l 0 (put (pt l (l.length - 1)).1 (meanSlope l (l.length - 1))
      (put (pt l 0).1 (meanSlope l 0) [])) := by
    refine ⟨asc_put _ _ (asc_put _ _ (by simp [Asc, keys])), ?_, ?_⟩
    · intro x hx
      simp only [mem_keys_put] at hx
      rcases hx with rfl | rfl | hx
      · exact mem_keys_pt.2 ⟨_, by omega, rfl⟩
      · exact mem_keys_pt.2 ⟨_, by omega, rfl⟩
      · simp [keys] at hx
    · intro j hj hd
      simp only [find_put]
      have : j = 0 ∨ j = l.length - 1 := by omega
      rcases this with rfl | rfl
      · rw [if_neg (pt_lt ha (by omega) (by omega)).ne, if_pos rfl]
      · rw [if_pos rfl]
  by_cases h3 : l.length > 2
  · rw [if_pos h3]
    obtain ⟨d, e, hd⟩ := inner_ok ha h3 h
    exact ⟨d, e, simple_two ha h2 hd le_rfl⟩
  · rw [if_neg h3]
    exact ⟨_, rfl, simple_two ha h2 h (by omega)⟩

/-! ### Adjusted derivatives -/

/-- The slopes at both ends of an interval are between zero and three times the chord. -/
def Safe (p q : K × K) (m n : K) : Prop :=
  ∃ a b : K, 0 ≤ a ∧ a ≤ 3 ∧ 0 ≤ b ∧ b ≤ 3 ∧ (q.1 - p.1) * m = a * (q.2 - p.2) ∧ (q.1 - p.1) * n = b * (q.2 - p.2)

theorem Safe.scale_right {p q : K × K} {m n c : K} (h : Safe p q m n) (h0 : 0 ≤ c) (h1 : c ≤ 1) :
    Safe p q m (c * n) := by
  obtain ⟨a, b, ha, ha3, hb, hb3, e1, e2⟩ := h
  refine ⟨a, c * b, ha, ha3, mul_nonneg h0 hb, by nlinarith, e1, ?_⟩
  linear_combination c * e2

/-- Loop invariant of the adjustment. -/
structure Adjusted (l : List (K × K)) (k : Nat) (c : Nat → K) (d : List (K × K)) : Prop where
  keys_eq : keys d = keys l
  unit : ∀ j, 0 ≤ c j ∧ c j ≤ 1
  value : ∀ j, j < l.length → find (pt l j).1 d = some (c j * meanSlope l j)
  safe : ∀ j, j < k → j + 1 < l.length →
    Safe (pt l j) (pt l (j + 1)) (c j * meanSlope l j) (c (j + 1) * meanSlope l (j + 1))
  kept : (∀ j, j < k → Moderate l j) → ∀ j, c j = 1

/-- Changing the slopes at both ends of interval `k` by factors. -/
theorem adjusted_put {l d : List (K × K)} {k : Nat} {c : Nat → K} (ha : Asc l) (hk : k + 1 < l.length)
    (h : Adjusted l k c d) {u v : K} (hu : 0 ≤ u ∧ u ≤ 1) (hv : 0 ≤ v ∧ v ≤ 1)
    (hs : Safe (pt l k) (pt l (k + 1)) (u * (c k * meanSlope l k)) (v * (c (k + 1) * meanSlope l (k + 1))))
    (hm : (∀ j, j < k + 1 → Moderate l j) → u = 1 ∧ v = 1) :
    ∃ c', Adjusted l (k + 1) c'
      (put (pt l (k + 1)).1 (v * (c (k + 1) * meanSlope l (k + 1))) (put (pt l k).1 (u * (c k * meanSlope l k)) d)) := by
  have hd : Asc d := by unfold Asc; rw [h.keys_eq]; exact ha
  have k1 : keys (put (pt l k).1 (u * (c k * meanSlope l k)) d) = keys l := by
    rw [keys_put _ _ hd (by rw [h.keys_eq]; exact mem_keys_pt.2 ⟨k, by omega, rfl⟩), h.keys_eq]
  refine ⟨fun j => if j = k then u * c k else if j = k + 1 then v * c (k + 1) else c j, ?_, ?_, ?_, ?_, ?_⟩
  · rw [keys_put _ _ (by unfold Asc; rw [k1]; exact ha) (by rw [k1]; exact mem_keys_pt.2 ⟨k + 1, hk, rfl⟩), k1]
  · intro j
    have a1 := h.unit k
    have a2 := h.unit (k + 1)
    split
    · exact ⟨mul_nonneg hu.1 a1.1, mul_le_one₀ hu.2 a1.1 a1.2⟩
    · split
      · exact ⟨mul_nonneg hv.1 a2.1, mul_le_one₀ hv.2 a2.1 a2.2⟩
      · exact h.unit j
  · intro j hj
    rw [find_put, find_put]
    by_cases e1 : j = k + 1
    · subst e1
      rw [if_pos rfl, if_neg (by omega), if_pos rfl, mul_assoc]
    · rw [if_neg (fun e => e1 (pt_inj ha hj hk e))]
      by_cases e2 : j = k
      · subst e2
        rw [if_pos rfl, if_pos rfl, mul_assoc]
      · rw [if_neg (fun e => e2 (pt_inj ha hj (by omega) e)), if_neg e2, if_neg e1, h.value j hj]
  · intro j hj hj1
    rcases Nat.lt_or_ge (j + 1) k with hjk | hjk
    · rw [if_neg (by omega), if_neg (by omega), if_neg (by omega), if_neg (by omega)]
      exact h.safe j (by omega) hj1
    · rcases Nat.lt_or_ge j k with hjk' | hjk'
      · have e : j + 1 = k := by omega
        rw [if_neg (by omega), if_neg (by omega), if_pos e]
        have := (h.safe j hjk' hj1).scale_right hu.1 hu.2
        rw [e] at this ⊢
        rwa [mul_assoc]
      · have e : j = k := by omega
        subst e
        rw [if_pos rfl, if_neg (by omega), if_pos rfl, mul_assoc, mul_assoc]
        exact hs
  · intro hM j
    obtain ⟨rfl, rfl⟩ := hm hM
    have := h.kept (fun i hi => hM i (by omega))
    simp [this]

/-- Keeping both slopes. -/
theorem adjusted_keep {l d : List (K × K)} {k : Nat} {c : Nat → K}
    (h : Adjusted l k c d)
    (hs : Safe (pt l k) (pt l (k + 1)) (c k * meanSlope l k) (c (k + 1) * meanSlope l (k + 1))) :
    Adjusted l (k + 1) c d := by
  refine ⟨h.keys_eq, h.unit, h.value, ?_, fun hM => h.kept (fun i hi => hM i (by omega))⟩
  intro j hj hj1
  rcases Nat.lt_or_ge j k with hjk | hjk
  · exact h.safe j hjk hj1
  · have e : j = k := by omega
    subst e
    exact hs

/-- The values change in the direction `σ` (`1` or `-1`). -/
def Dir (σ : K) (l : List (K × K)) : Prop :=
  σ * σ = 1 ∧ ∀ j, j + 1 < l.length → 0 ≤ σ * ((pt l (j + 1)).2 - (pt l j).2)

theorem Dir.chord {σ : K} {l : List (K × K)} (h : Dir σ l) (ha : Asc l) {j : Nat} (hj : j + 1 < l.length) :
    0 ≤ σ * chord (pt l j) (pt l (j + 1)) := by
  have h1 := h.2 j hj
  have h2 := pt_lt ha (i := j) (j := j + 1) (by omega) hj
  unfold Spec.chord
  rw [← mul_div_assoc]
  exact div_nonneg h1 (sub_nonneg.2 h2.le)

theorem Dir.meanSlope {σ : K} {l : List (K × K)} (h : Dir σ l) (ha : Asc l) (h2 : 2 ≤ l.length) {j : Nat}
    (hj : j < l.length) : 0 ≤ σ * meanSlope l j := by
  unfold Spec.meanSlope
  split
  · exact h.chord ha (j := 0) (by omega)
  · split
    · have := h.chord ha (j := j - 1) (by omega)
      rwa [show j - 1 + 1 = j by omega] at this
    · have a1 := h.chord ha (j := j - 1) (by omega)
      have a2 := h.chord ha (j := j) (by omega)
      rw [show j - 1 + 1 = j by omega] at a1
      rw [← mul_div_assoc, mul_add]
      exact div_nonneg (add_nonneg a1 a2) two_pos.le

/-- The quotient of two numbers of the same sign is not negative. -/
theorem ratio_nonneg {σ m d : K} (hσ : σ * σ = 1) (hm : 0 ≤ σ * m) (hd : 0 ≤ σ * d) : 0 ≤ m / d := by
  have : m / d = σ * m / (σ * d) := by
    have : σ ≠ 0 := by rintro rfl; simp at hσ
    rw [mul_div_mul_left _ _ this]
  rw [this]
  exact div_nonneg hm hd

theorem le_three {a b : K} (h : a * a + b * b ≤ 9) : a ≤ 3 := by nlinarith [mul_self_nonneg b, mul_self_nonneg (a - 3)]

/-- The bounded slopes of an interval that is not flat. -/
theorem safe_of_ratio {l : List (K × K)} (ha : Asc l) {k : Nat} (hk : k + 1 < l.length) {m n : K}
    (hd : chord (pt l k) (pt l (k + 1)) ≠ 0)
    (h0 : 0 ≤ m / chord (pt l k) (pt l (k + 1))) (h1 : m / chord (pt l k) (pt l (k + 1)) ≤ 3)
    (h2 : 0 ≤ n / chord (pt l k) (pt l (k + 1))) (h3 : n / chord (pt l k) (pt l (k + 1)) ≤ 3) :
    Safe (pt l k) (pt l (k + 1)) m n := by
  have hx := sub_ne_zero.2 (pt_lt ha (i := k) (j := k + 1) (by omega) hk).ne'
  have e : chord (pt l k) (pt l (k + 1)) * ((pt l (k + 1)).1 - (pt l k).1) = (pt l (k + 1)).2 - (pt l k).2 := by
    unfold chord
    field_simp
  refine ⟨_, _, h0, h1, h2, h3, ?_, ?_⟩
  · rw [← e]; field_simp
  · rw [← e]; field_simp

theorem adjustSteep_ok {sqrt : K → K} (hr : IsRoot sqrt) {σ : K} {l d : List (K × K)} {k : Nat} {c : Nat → K}
    (ha : Asc l) (hD : Dir σ l) (hk : k + 1 < l.length) (h : Adjusted l k c d)
    (hd : chord (pt l k) (pt l (k + 1)) ≠ 0) :
    ∃ d', adjustSteep sqrt (pt l k) (pt l (k + 1)) (chord (pt l k) (pt l (k + 1))) d = .ok d' ∧
      ∃ c', Adjusted l (k + 1) c' d' := by
  unfold adjustSteep
  simp only
  rw [fetch_some (h.value k (by omega)), kdiv_ok hd, bind_ok]
  simp only
  rw [fetch_some (h.value (k + 1) hk), kdiv_ok hd, bind_ok]
  simp only
  have hσ := hD.1
  have hsd := hD.chord ha hk
  have m1 : 0 ≤ σ * (c k * meanSlope l k) := by
    have := mul_nonneg (h.unit k).1 (hD.meanSlope ha (by omega) (j := k) (by omega))
    linarith [show σ * (c k * meanSlope l k) = c k * (σ * meanSlope l k) by ring]
  have m2 : 0 ≤ σ * (c (k + 1) * meanSlope l (k + 1)) := by
    have := mul_nonneg (h.unit (k + 1)).1 (hD.meanSlope ha (by omega) (j := k + 1) hk)
    linarith [show σ * (c (k + 1) * meanSlope l (k + 1)) = c (k + 1) * (σ * meanSlope l (k + 1)) by ring]
  have a0 := ratio_nonneg hσ m1 hsd
  have b0 := ratio_nonneg hσ m2 hsd
  have hM : (∀ j, j < k + 1 → Moderate l j) →
      isMonotoneCoeff (c k * meanSlope l k / chord (pt l k) (pt l (k + 1)))
        (c (k + 1) * meanSlope l (k + 1) / chord (pt l k) (pt l (k + 1))) = true := by
    intro hM
    have := h.kept (fun i hi => hM i (by omega))
    have h9 := (hM k (by omega)).2
    rw [this k, this (k + 1), one_mul, one_mul]
    unfold isMonotoneCoeff
    rw [decide_eq_true_iff]
    rwa [sq, sq] at h9
  generalize hal : c k * meanSlope l k / chord (pt l k) (pt l (k + 1)) = al at *
  generalize hbe : c (k + 1) * meanSlope l (k + 1) / chord (pt l k) (pt l (k + 1)) = be at *
  have e1 : c k * meanSlope l k = al * chord (pt l k) (pt l (k + 1)) := by rw [← hal]; field_simp
  have e2 : c (k + 1) * meanSlope l (k + 1) = be * chord (pt l k) (pt l (k + 1)) := by rw [← hbe]; field_simp
  by_cases hc : isMonotoneCoeff al be = true
  · rw [hc]
    simp only [Bool.not_true, Bool.false_eq_true, if_false]
    refine ⟨_, rfl, c, adjusted_keep h ?_⟩
    have h9 : al * al + be * be ≤ 9 := by simpa [isMonotoneCoeff] using hc
    refine safe_of_ratio ha hk hd ?_ ?_ ?_ ?_
    · rw [hal]; exact a0
    · rw [hal]; exact le_three h9
    · rw [hbe]; exact b0
    · rw [hbe]; exact le_three (a := be) (b := al) (by linarith)
  · rw [Bool.not_eq_true] at hc
    rw [hc]
    simp only [Bool.not_false, if_true]
    have h9 : 9 < al * al + be * be := by simpa [isMonotoneCoeff] using hc
    obtain ⟨r0, r1⟩ := hr (al * al + be * be) (by linarith)
    generalize hro : sqrt (al * al + be * be) = ro at *
    have r3 : 3 < ro := by nlinarith
    rw [kdiv_ok (by linarith : ro ≠ 0), bind_ok]
    have ale : al ≤ ro := by nlinarith [mul_self_nonneg be]
    have ble : be ≤ ro := by nlinarith [mul_self_nonneg al]
    have t0 : 0 ≤ 3 / ro := by positivity
    have t1 : 3 / ro ≤ 1 := by rw [div_le_one (by linarith)]; exact r3.le
    have := adjusted_put ha hk h (u := 3 / ro) (v := 3 / ro) ⟨t0, t1⟩ ⟨t0, t1⟩ (by
        refine safe_of_ratio ha hk hd ?_ ?_ ?_ ?_
        · rw [mul_div_assoc, hal]; exact mul_nonneg t0 a0
        · rw [mul_div_assoc, hal, div_mul_eq_mul_div, div_le_iff₀ (by linarith)]; linarith
        · rw [mul_div_assoc, hbe]; exact mul_nonneg t0 b0
        · rw [mul_div_assoc, hbe, div_mul_eq_mul_div, div_le_iff₀ (by linarith)]; linarith)
      (fun hM' => by rw [hM hM'] at hc; cases hc)
    refine ⟨_, rfl, ?_⟩
    rw [e1, e2, ← mul_assoc, ← mul_assoc] at this
    exact this

theorem adjustStep_ok {sqrt : K → K} (hr : IsRoot sqrt) {σ : K} {l d : List (K × K)} {k : Nat} {c : Nat → K}
    (ha : Asc l) (hD : Dir σ l) (hk : k + 1 < l.length) (h : Adjusted l k c d) :
    ∃ d', adjustStep sqrt l k d = .ok d' ∧ ∃ c', Adjusted l (k + 1) c' d' := by
  unfold adjustStep
  rw [rd_pt (by omega : k < l.length), bind_ok, rd_pt hk, bind_ok,
    slope_ok (pt_lt ha (i := k) (j := k + 1) (by omega) hk), bind_ok]
  by_cases hf : |chord (pt l k) (pt l (k + 1))| < 1 / 100000000000000
  · rw [if_pos hf]
    have := adjusted_put ha hk h (u := 0) (v := 0) ⟨le_rfl, zero_le_one⟩ ⟨le_rfl, zero_le_one⟩
      ⟨0, 0, le_rfl, by norm_num, le_rfl, by norm_num, by simp, by simp⟩
      (fun hM => absurd (hM k (by omega)).1 (not_le.2 hf))
    simp only [zero_mul] at this
    exact ⟨_, rfl, this⟩
  · rw [if_neg hf]
    refine adjustSteep_ok hr ha hD hk h ?_
    intro e
    rw [e, abs_zero] at hf
    exact hf (by norm_num)

/-- The adjustment scales every slope by a factor between zero and one and makes all intervals safe. -/
theorem adjustDerivatives_ok {sqrt : K → K} (hr : IsRoot sqrt) {σ : K} {l d : List (K × K)}
    (ha : Asc l) (hD : Dir σ l) (hk : keys d = keys l)
    (hv : ∀ j, j < l.length → find (pt l j).1 d = some (meanSlope l j)) :
    ∃ d', adjustDerivatives sqrt l d = .ok d' ∧ ∃ c, Adjusted l (l.length - 1) c d' := by
  unfold adjustDerivatives
  refine loop_inv (fun k d => ∃ c, Adjusted l k c d) ⟨fun _ => 1, hk, fun _ => ⟨zero_le_one, le_rfl⟩, ?_, ?_, ?_⟩ ?_
  · intro j hj
    rw [hv j hj, one_mul]
  · intro j hj
    omega
  · intro _ _
    rfl
  · rintro i t hi ⟨c, hc⟩
    exact adjustStep_ok hr ha hD (by omega) hc

end Opm.MonotCubic
