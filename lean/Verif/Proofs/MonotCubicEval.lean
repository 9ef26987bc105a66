import Verif.Proofs.MonotCubic
/-! # The monotone cubic interpolator: flags, evaluation, histories -/

set_option linter.unusedSectionVars false

namespace Opm.MonotCubic
open Opm Spec

variable {K : Type} [Field K] [LinearOrder K]

/-! ### Flags -/

/-- The flags say exactly how the values behave. -/
structure Exact (fs : List K) (fl : Flags) : Prop where
  mono : fl.monotone = true ↔ NonDecreasing fs ∨ NonIncreasing fs
  strict : fl.strictlyMonotone = true ↔ Increasing fs ∨ Decreasing fs
  inc : (fl.monotone && fl.increasing) = true ↔ NonDecreasing fs
  dec : (fl.monotone && fl.decreasing) = true ↔ NonIncreasing fs
  sinc : (fl.strictlyMonotone && fl.strictlyIncreasing) = true ↔ Increasing fs
  sdec : (fl.strictlyMonotone && fl.strictlyDecreasing) = true ↔ Decreasing fs
  up : fl.strictlyIncreasing = true → NonDecreasing fs
  down : fl.strictlyDecreasing = true → NonIncreasing fs

theorem nd_chain (fs : List K) : NonDecreasing fs ↔ fs.IsChain (· ≤ ·) := List.isChain_iff_pairwise.symm
theorem ni_chain (fs : List K) : NonIncreasing fs ↔ fs.IsChain (· ≥ ·) := List.isChain_iff_pairwise.symm
theorem in_chain (fs : List K) : Increasing fs ↔ fs.IsChain (· < ·) := List.isChain_iff_pairwise.symm
theorem de_chain (fs : List K) : Decreasing fs ↔ fs.IsChain (· > ·) := List.isChain_iff_pairwise.symm

theorem decLoop_spec (l : List K) : ∀ fl : Flags,
    ((decLoop fl l).monotone = true ↔ fl.monotone = true ∧ l.IsChain (· ≥ ·)) ∧
    ((decLoop fl l).strictlyMonotone = true ↔ fl.strictlyMonotone = true ∧ l.IsChain (· > ·)) ∧
    ((decLoop fl l).strictlyDecreasing = true ↔ fl.strictlyDecreasing = true ∧ l.IsChain (· > ·)) ∧
    (decLoop fl l).strictlyIncreasing = fl.strictlyIncreasing ∧
    (decLoop fl l).increasing = fl.increasing ∧ (decLoop fl l).decreasing = fl.decreasing := by
  induction l with
  | nil => intro fl; simp [decLoop]
  | cons a l ih =>
    intro fl
    cases l with
    | nil => simp [decLoop]
    | cons b l =>
      simp only [decLoop, List.isChain_cons_cons]
      split
      · rename_i h
        simp [not_le.2 h, not_lt.2 h.le]
      · rename_i h
        split
        · rename_i h'
          obtain ⟨i1, i2, i3, i4, i5, i6⟩ := ih { fl with strictlyMonotone := false, strictlyDecreasing := false }
          rw [i1, i2, i3, i4, i5, i6]
          have e : a ≥ b := not_lt.1 h
          have e' : ¬ a > b := not_lt.2 h'
          simp [e, e']
        · rename_i h'
          obtain ⟨i1, i2, i3, i4, i5, i6⟩ := ih fl
          rw [i1, i2, i3, i4, i5, i6]
          have e : a ≥ b := not_lt.1 h
          have e' : a > b := not_le.1 h'
          simp [e, e']

theorem incLoop_spec (l : List K) : ∀ fl : Flags,
    ((incLoop fl l).monotone = true ↔ fl.monotone = true ∧ l.IsChain (· ≤ ·)) ∧
    ((incLoop fl l).strictlyMonotone = true ↔ fl.strictlyMonotone = true ∧ l.IsChain (· < ·)) ∧
    ((incLoop fl l).strictlyIncreasing = true ↔ fl.strictlyIncreasing = true ∧ l.IsChain (· < ·)) ∧
    (incLoop fl l).strictlyDecreasing = fl.strictlyDecreasing ∧
    (incLoop fl l).increasing = fl.increasing ∧ (incLoop fl l).decreasing = fl.decreasing := by
  induction l with
  | nil => intro fl; simp [incLoop]
  | cons a l ih =>
    intro fl
    cases l with
    | nil => simp [incLoop]
    | cons b l =>
      simp only [incLoop, List.isChain_cons_cons]
      split
      · rename_i h
        simp [not_le.2 h, not_lt.2 (le_of_lt h)]
      · rename_i h
        split
        · rename_i h'
          obtain ⟨i1, i2, i3, i4, i5, i6⟩ := ih { fl with strictlyMonotone := false, strictlyIncreasing := false }
          rw [i1, i2, i3, i4, i5, i6]
          have e : a ≤ b := not_lt.1 h
          have e' : ¬ a < b := not_lt.2 h'
          simp [e, e']
        · rename_i h'
          obtain ⟨i1, i2, i3, i4, i5, i6⟩ := ih fl
          rw [i1, i2, i3, i4, i5, i6]
          have e : a ≤ b := not_lt.1 h
          have e' : a < b := not_le.1 h'
          simp [e, e']

/-- The three strictness flags are cleared. -/
def Flags.loosen (fl : Flags) : Flags :=
  { fl with strictlyMonotone := false, strictlyIncreasing := false, strictlyDecreasing := false }

theorem skipEqual_spec (l : List K) : ∀ fl : Flags,
    ((skipEqual fl l) = (fl, l) ∨
      (skipEqual fl l).1 = fl.loosen ∧ ¬ l.IsChain (· < ·) ∧ ¬ l.IsChain (· > ·)) ∧
    (l.IsChain (· ≤ ·) ↔ (skipEqual fl l).2.IsChain (· ≤ ·)) ∧
    (l.IsChain (· ≥ ·) ↔ (skipEqual fl l).2.IsChain (· ≥ ·)) ∧
    (∀ a b t, (skipEqual fl l).2 = a :: b :: t → a ≠ b) := by
  induction l with
  | nil => intro fl; simp [skipEqual]
  | cons a l ih =>
    intro fl
    cases l with
    | nil => simp [skipEqual]
    | cons b l =>
      simp only [skipEqual]
      split
      · rename_i h
        obtain ⟨i1, i2, i3, i4⟩ := ih fl.loosen
        refine ⟨Or.inr ⟨?_, ?_, ?_⟩, ?_, ?_, i4⟩
        · rcases i1 with e | e
          · exact (congrArg Prod.fst e)
          · exact e.1
        · simp [h]
        · simp [h]
        · rw [List.isChain_cons_cons, i2]
          simp only [h, le_refl, true_and]
          rfl
        · rw [List.isChain_cons_cons, i3]
          simp only [h, ge_iff_le, le_refl, true_and]
          rfl
      · rename_i h
        refine ⟨Or.inl rfl, Iff.rfl, Iff.rfl, ?_⟩
        intro a' b' t e
        simp only [List.cons.injEq] at e
        rw [← e.1, ← e.2.1]
        exact h

/-- `computeInternalFunctionData` computes exact flags. -/
theorem computeFlags_ok (fs : List K) : ∃ fl, computeFlags fs = .ok fl ∧ Exact fs fl := by
  unfold computeFlags
  obtain ⟨h1, h2, h3, h4⟩ := skipEqual_spec fs ⟨true, true, true, true, true, true⟩
  have f1 : (skipEqual ⟨true, true, true, true, true, true⟩ fs).1 = ⟨true, true, true, true, true, true⟩ ∧
        (skipEqual ⟨true, true, true, true, true, true⟩ fs).2 = fs ∨
      (skipEqual ⟨true, true, true, true, true, true⟩ fs).1 = ⟨false, true, false, false, true, true⟩ ∧
        ¬ fs.IsChain (· < ·) ∧ ¬ fs.IsChain (· > ·) := by
    rcases h1 with e | e
    · left; rw [e]; exact ⟨rfl, rfl⟩
    · right; exact e
  clear h1
  generalize hr : skipEqual ⟨true, true, true, true, true, true⟩ fs = r at *
  obtain ⟨fl, l⟩ := r
  simp only at h2 h3 h4 f1
  match l, h2, h3, h4, f1 with
  | [], h2, h3, h4, f1 =>
    refine ⟨fl, rfl, ?_⟩
    have a1 : fs.IsChain (· ≤ ·) := h2.2 List.isChain_nil
    have a2 : fs.IsChain (· ≥ ·) := h3.2 List.isChain_nil
    rcases f1 with ⟨rfl, rfl⟩ | ⟨rfl, n1, n2⟩
    · constructor <;> simp [NonDecreasing, NonIncreasing, Increasing, Decreasing]
    · constructor <;> simp [nd_chain, ni_chain, in_chain, de_chain, a1, a2, n1, n2]
  | [a], h2, h3, h4, f1 =>
    refine ⟨fl, rfl, ?_⟩
    have a1 : fs.IsChain (· ≤ ·) := h2.2 (List.isChain_singleton _)
    have a2 : fs.IsChain (· ≥ ·) := h3.2 (List.isChain_singleton _)
    rcases f1 with ⟨rfl, rfl⟩ | ⟨rfl, n1, n2⟩
    · constructor <;> simp [NonDecreasing, NonIncreasing, Increasing, Decreasing]
    · constructor <;> simp [nd_chain, ni_chain, in_chain, de_chain, a1, a2, n1, n2]
  | a :: b :: t, h2, h3, h4, f1 =>
    have hab := h4 a b t rfl
    simp only [direction]
    rw [List.isChain_cons_cons] at h2 h3
    rcases lt_or_gt_of_ne hab with hlt | hgt
    · rw [if_neg (not_lt.2 hlt.le), if_pos hlt]
      have n3 : ¬ fs.IsChain (· ≥ ·) := fun h => absurd (h3.1 h).1 (not_le.2 hlt)
      have n4 : ¬ fs.IsChain (· > ·) := fun h => n3 (h.imp (fun _ _ h => le_of_lt h))
      rw [show (a ≤ b ∧ (b :: t).IsChain (· ≤ ·)) ↔ (b :: t).IsChain (· ≤ ·) from ⟨And.right, fun h => ⟨hlt.le, h⟩⟩] at h2
      refine ⟨_, rfl, ?_⟩
      obtain ⟨i1, i2, i3, i4, i5, i6⟩ := incLoop_spec (b :: t) { fl with strictlyDecreasing := false, strictlyIncreasing := true, decreasing := false, increasing := true }
      generalize incLoop { fl with strictlyDecreasing := false, strictlyIncreasing := true, decreasing := false, increasing := true } (b :: t) = fl' at *
      have sub : (b :: t).IsChain (· < ·) → (b :: t).IsChain (· ≤ ·) := fun h => h.imp (fun _ _ h => le_of_lt h)
      rcases f1 with ⟨rfl, rfl⟩ | ⟨rfl, n1, n2⟩
      · have e : (a :: b :: t).IsChain (· < ·) ↔ (b :: t).IsChain (· < ·) := by
          rw [List.isChain_cons_cons]; exact ⟨And.right, fun h => ⟨hlt, h⟩⟩
        constructor <;> simp only [nd_chain, ni_chain, in_chain, de_chain, Bool.and_eq_true, i1, i2, i3, i4, i5, i6, h2, e, n3, n4] <;> (simp; try exact sub)
      · constructor <;> simp_all [nd_chain, ni_chain, in_chain, de_chain]
    · rw [if_pos hgt]
      have n3 : ¬ fs.IsChain (· ≤ ·) := fun h => absurd (h2.1 h).1 (not_le.2 hgt)
      have n4 : ¬ fs.IsChain (· < ·) := fun h => n3 (h.imp (fun _ _ h => le_of_lt h))
      rw [show (a ≥ b ∧ (b :: t).IsChain (· ≥ ·)) ↔ (b :: t).IsChain (· ≥ ·) from ⟨And.right, fun h => ⟨le_of_lt hgt, h⟩⟩] at h3
      refine ⟨_, rfl, ?_⟩
      obtain ⟨i1, i2, i3, i4, i5, i6⟩ := decLoop_spec (b :: t) { fl with strictlyDecreasing := true, decreasing := true, strictlyIncreasing := false, increasing := false }
      generalize decLoop { fl with strictlyDecreasing := true, decreasing := true, strictlyIncreasing := false, increasing := false } (b :: t) = fl' at *
      have sub : (b :: t).IsChain (· > ·) → (b :: t).IsChain (· ≥ ·) := fun h => h.imp (fun _ _ h => le_of_lt h)
      rcases f1 with ⟨rfl, rfl⟩ | ⟨rfl, n1, n2⟩
      · have e : (a :: b :: t).IsChain (· > ·) ↔ (b :: t).IsChain (· > ·) := by
          rw [List.isChain_cons_cons]; exact ⟨And.right, fun h => ⟨hgt, h⟩⟩
        constructor <;> simp only [nd_chain, ni_chain, in_chain, de_chain, Bool.and_eq_true, i1, i2, i3, i4, i5, i6, h3, e, n3, n4] <;> (simp; try exact sub)
      · constructor <;> simp_all [nd_chain, ni_chain, in_chain, de_chain]

variable [IsStrictOrderedRing K]

/-! ### The cubic pieces -/

theorem cubic_left (p q : K × K) (m n : K) : cubic p q m n p.1 = p.2 := by simp [cubic]

theorem cubic_right {p q : K × K} (h : p.1 < q.1) (m n : K) : cubic p q m n q.1 = q.2 := by
  have := sub_ne_zero.2 h.ne'
  unfold cubic chord
  field_simp
  ring

theorem cubic_linear {p q : K × K} (x : K) :
    cubic p q (chord p q) (chord p q) x = p.2 + chord p q * (x - p.1) := by
  unfold cubic
  ring

/-- The shape of a safe piece on the unit interval. -/
theorem shape_mono {a b s t : K} (ha : 0 ≤ a) (ha3 : a ≤ 3) (hb : 0 ≤ b) (hb3 : b ≤ 3) (hs : 0 ≤ s) (hst : s ≤ t)
    (ht : t ≤ 1) : H01 s + a * H10 s + b * H11 s ≤ H01 t + a * H10 t + b * H11 t := by
  have c00 : 0 ≤ H01 t - H01 s := by
    have : H01 t - H01 s = (t - s) * (3 * (t + s) - 2 * (t * t + t * s + s * s)) := by unfold H01; ring
    rw [this]
    refine mul_nonneg (by linarith) ?_
    nlinarith [mul_nonneg hs (by linarith : 0 ≤ 1 - s), mul_nonneg (hs.trans hst) (by linarith : 0 ≤ 1 - t),
      mul_nonneg hs (by linarith : 0 ≤ 1 - t), mul_nonneg (hs.trans hst) (by linarith : 0 ≤ 1 - s)]
  have c30 : 0 ≤ H01 t - H01 s + 3 * (H10 t - H10 s) := by
    have : H01 t - H01 s + 3 * (H10 t - H10 s)
        = (t - s) * ((1 - s) * (1 - s) + (1 - s) * (1 - t) + (1 - t) * (1 - t)) := by unfold H01 H10; ring
    rw [this]
    refine mul_nonneg (by linarith) ?_
    have e1 : 0 ≤ 1 - s := by linarith
    have e2 : 0 ≤ 1 - t := by linarith
    positivity
  have c03 : 0 ≤ H01 t - H01 s + 3 * (H11 t - H11 s) := by
    have : H01 t - H01 s + 3 * (H11 t - H11 s) = (t - s) * (t * t + t * s + s * s) := by unfold H01 H11; ring
    rw [this]
    have e1 : 0 ≤ t := by linarith
    refine mul_nonneg (by linarith) ?_
    positivity
  have c33 : 0 ≤ H01 t - H01 s + 3 * (H10 t - H10 s) + 3 * (H11 t - H11 s) := by
    have : H01 t - H01 s + 3 * (H10 t - H10 s) + 3 * (H11 t - H11 s)
        = (t - s) * ((2 * t - 1 + (2 * s - 1) / 2) ^ 2 + 3 / 4 * (2 * s - 1) ^ 2) := by
      unfold H01 H10 H11; ring
    rw [this]
    refine mul_nonneg (by linarith) ?_
    positivity
  have key : H01 t + a * H10 t + b * H11 t - (H01 s + a * H10 s + b * H11 s)
      = ((3 - a) * (3 - b) * (H01 t - H01 s) + a * (3 - b) * (H01 t - H01 s + 3 * (H10 t - H10 s))
        + (3 - a) * b * (H01 t - H01 s + 3 * (H11 t - H11 s))
        + a * b * (H01 t - H01 s + 3 * (H10 t - H10 s) + 3 * (H11 t - H11 s))) / 9 := by ring
  have a3 : 0 ≤ 3 - a := by linarith
  have b3 : 0 ≤ 3 - b := by linarith
  have : 0 ≤ H01 t + a * H10 t + b * H11 t - (H01 s + a * H10 s + b * H11 s) := by
    rw [key]; positivity
  linarith

theorem cubic_shape {p q : K × K} (h : p.1 < q.1) {m n a b : K} (e1 : (q.1 - p.1) * m = a * (q.2 - p.2))
    (e2 : (q.1 - p.1) * n = b * (q.2 - p.2)) (x : K) :
    cubic p q m n x = p.2 + (q.2 - p.2) * (H01 ((x - p.1) / (q.1 - p.1)) + a * H10 ((x - p.1) / (q.1 - p.1))
      + b * H11 ((x - p.1) / (q.1 - p.1))) := by
  have hh := sub_ne_zero.2 h.ne'
  have em : m = a * (q.2 - p.2) / (q.1 - p.1) := by field_simp; linarith
  have en : n = b * (q.2 - p.2) / (q.1 - p.1) := by field_simp; linarith
  rw [em, en]
  unfold cubic chord H01 H10 H11
  field_simp
  ring

/-- A safe piece runs in the direction of its data. -/
theorem cubic_mono {σ : K} {p q : K × K} (h : p.1 < q.1) {m n : K} (hs : Safe p q m n)
    (hσ : 0 ≤ σ * (q.2 - p.2)) {x y : K} (hx : p.1 ≤ x) (hxy : x ≤ y) (hy : y ≤ q.1) :
    σ * cubic p q m n x ≤ σ * cubic p q m n y := by
  obtain ⟨a, b, ha, ha3, hb, hb3, e1, e2⟩ := hs
  have hh : 0 < q.1 - p.1 := by linarith
  rw [cubic_shape h e1 e2, cubic_shape h e1 e2]
  have := shape_mono ha ha3 hb hb3 (s := (x - p.1) / (q.1 - p.1)) (t := (y - p.1) / (q.1 - p.1))
    (div_nonneg (by linarith) hh.le) (div_le_div_of_nonneg_right (by linarith) hh.le)
    (by rw [div_le_one hh]; linarith)
  nlinarith [mul_le_mul_of_nonneg_left this hσ]

theorem hermite_cubic {p q : K × K} (h : p.1 < q.1) (m n x : K) :
    p.2 * H00 ((x - p.1) / (q.1 - p.1)) + m * H10 ((x - p.1) / (q.1 - p.1)) * (q.1 - p.1)
      + q.2 * H01 ((x - p.1) / (q.1 - p.1)) + n * H11 ((x - p.1) / (q.1 - p.1)) * (q.1 - p.1)
      = cubic p q m n x := by
  have hh := sub_ne_zero.2 h.ne'
  unfold cubic chord H00 H01 H10 H11
  field_simp
  ring

/-! ### Evaluation -/

theorem takeWhile_lt (x : K) (m : List (K × K)) : ∀ i p, i < lowerBound x m → m[i]? = some p → p.1 < x := by
  unfold lowerBound
  induction m with
  | nil => intro i p hi; simp at hi
  | cons q m ih =>
    intro i p hi hp
    rw [List.takeWhile_cons] at hi
    split at hi
    · rename_i hq
      cases i with
      | zero =>
        simp only [List.getElem?_cons_zero, Option.some.injEq] at hp
        rw [← hp]; exact of_decide_eq_true hq
      | succ i => exact ih i p (by simpa using hi) (by simpa using hp)
    · simp at hi

theorem takeWhile_ge (x : K) (m : List (K × K)) : ∀ p, m[lowerBound x m]? = some p → x ≤ p.1 := by
  unfold lowerBound
  induction m with
  | nil => intro p hp; simp at hp
  | cons q m ih =>
    intro p hp
    rw [List.takeWhile_cons] at hp
    split at hp
    · exact ih p (by simpa using hp)
    · rename_i hq
      simp only [List.length_nil, List.getElem?_cons_zero, Option.some.injEq] at hp
      rw [← hp]
      simpa using hq

theorem lowerBound_le (x : K) (m : List (K × K)) : lowerBound x m ≤ m.length :=
  (List.takeWhile_prefix _).length_le

theorem lowerBound_zero {m : List (K × K)} {x : K} (h0 : 0 < m.length) (hx : x ≤ (pt m 0).1) :
    lowerBound x m = 0 := by
  by_contra h
  exact absurd (takeWhile_lt x m 0 _ (by omega) (pt_get h0)) (not_lt.2 hx)

theorem lowerBound_eq {m : List (K × K)} (ha : Asc m) {x : K} {i : Nat} (hi : i < m.length)
    (hx : (pt m i).1 < x) (hx' : i + 1 < m.length → x ≤ (pt m (i + 1)).1) : lowerBound x m = i + 1 := by
  rcases Nat.lt_trichotomy (lowerBound x m) (i + 1) with h | h | h
  · have := takeWhile_ge x m _ (pt_get (by omega : lowerBound x m < m.length))
    have h2 := pt_le ha (i := lowerBound x m) (j := i) (by omega) hi
    exact absurd hx (not_lt.2 (this.trans h2))
  · exact h
  · have hl := lowerBound_le x m
    have h1 : i + 1 < m.length := by omega
    exact absurd (takeWhile_lt x m _ _ h (pt_get h1)) (not_lt.2 (hx' h1))

/-- The object is consistent: ordered data, and derivatives that belong to the data unless there are more of
them; in monotone data the derivatives are safe. -/
structure Good (s : Interp K) : Prop where
  asc : Asc s.data
  more : 2 ≤ s.data.length → s.data.length ≤ s.ddata.length
  keys_eq : 2 ≤ s.data.length → s.ddata.length = s.data.length → keys s.ddata = keys s.data
  safe : s.ddata.length = s.data.length → NonDecreasing (fVector s) ∨ NonIncreasing (fVector s) →
    ∀ i m n, i + 1 < s.data.length → find (pt s.data i).1 s.ddata = some m →
      find (pt s.data (i + 1)).1 s.ddata = some n → Safe (pt s.data i) (pt s.data (i + 1)) m n

/-- The slope pair used on an interval. -/
def slopes (s : Interp K) (i : Nat) : K × K :=
  if s.ddata.length ≠ s.data.length then (chord (pt s.data i) (pt s.data (i + 1)), chord (pt s.data i) (pt s.data (i + 1)))
  else ((find (pt s.data i).1 s.ddata).getD 0, (find (pt s.data (i + 1)).1 s.ddata).getD 0)

theorem Good.find {s : Interp K} (g : Good s) (h2 : 2 ≤ s.data.length) (he : s.ddata.length = s.data.length) {i : Nat}
    (hi : i < s.data.length) : ∃ v, find (pt s.data i).1 s.ddata = some v := by
  rw [find_isSome, g.keys_eq h2 he]
  exact mem_keys_pt.2 ⟨i, hi, rfl⟩

theorem evaluate_left {s : Interp K} (h0 : 0 < s.data.length) {x : K} (hx : x ≤ (pt s.data 0).1) :
    evaluate s x = .ok ((pt s.data 0).2, s) := by
  unfold evaluate
  rw [if_pos (lowerBound_zero h0 hx), rd_pt h0, bind_ok]

theorem evaluate_right {s : Interp K} (g : Good s) (h0 : 0 < s.data.length) {x : K}
    (hx : (pt s.data (s.data.length - 1)).1 < x) :
    evaluate s x = .ok ((pt s.data (s.data.length - 1)).2, s) := by
  unfold evaluate
  have := lowerBound_eq g.asc (i := s.data.length - 1) (by omega) hx (fun h => by omega)
  rw [this, if_neg (by omega), if_pos (by omega), rd_pt (by omega), bind_ok]

theorem evaluate_inside {s : Interp K} (g : Good s) {i : Nat} (hi : i + 1 < s.data.length) {x : K}
    (hx : (pt s.data i).1 < x) (hx' : x ≤ (pt s.data (i + 1)).1) :
    evaluate s x = .ok (cubic (pt s.data i) (pt s.data (i + 1)) (slopes s i).1 (slopes s i).2 x, s) := by
  unfold evaluate
  have hlb := lowerBound_eq g.asc (i := i) (by omega) hx (fun _ => hx')
  have hpq := pt_lt g.asc (i := i) (j := i + 1) (by omega) hi
  rw [hlb, if_neg (by omega), if_neg (by omega)]
  unfold evaluateInside
  rw [rd_pt hi, bind_ok, Nat.add_sub_cancel, rd_pt (by omega : i < s.data.length), bind_ok]
  by_cases he : s.ddata.length = s.data.length
  · rw [if_neg (fun h => h he)]
    obtain ⟨m, hm⟩ := g.find (by omega) he (i := i) (by omega)
    obtain ⟨n, hn⟩ := g.find (by omega) he (i := i + 1) hi
    unfold hermite
    simp only
    rw [kdiv_ok (sub_ne_zero.2 hpq.ne'), bind_ok, fetch_some hm]
    simp only
    rw [fetch_some hn]
    simp only [slopes, if_neg (fun h : s.ddata.length ≠ s.data.length => h he), hm, hn, Option.getD_some]
    rw [hermite_cubic hpq]
  · rw [if_pos he]
    unfold linear
    rw [slope_ok hpq, bind_ok, bind_ok]
    simp only [slopes, if_pos he]
    rw [cubic_linear]

/-- The closed interval. -/
theorem evaluate_piece {s : Interp K} (g : Good s) {i : Nat} (hi : i + 1 < s.data.length) {x : K}
    (hx : (pt s.data i).1 ≤ x) (hx' : x ≤ (pt s.data (i + 1)).1) :
    evaluate s x = .ok (cubic (pt s.data i) (pt s.data (i + 1)) (slopes s i).1 (slopes s i).2 x, s) := by
  rcases lt_or_eq_of_le hx with h | h
  · exact evaluate_inside g hi h hx'
  · subst h
    rw [cubic_left]
    cases i with
    | zero => exact evaluate_left (by omega) le_rfl
    | succ i =>
      have hpq := pt_lt g.asc (i := i) (j := i + 1) (by omega) (by omega)
      rw [evaluate_inside g (i := i) (by omega) hpq le_rfl, cubic_right hpq]

theorem evaluate_node {s : Interp K} (g : Good s) {i : Nat} (hi : i < s.data.length) :
    evaluate s (pt s.data i).1 = .ok ((pt s.data i).2, s) := by
  cases i with
  | zero => exact evaluate_left hi le_rfl
  | succ i =>
    have hpq := pt_lt g.asc (i := i) (j := i + 1) (by omega) hi
    rw [evaluate_inside g (i := i) hi hpq le_rfl, cubic_right hpq]

/-- Every argument is left of the data, right of it, or in an interval. -/
theorem locate {l : List (K × K)} (h0 : 0 < l.length) (x : K) :
    x ≤ (pt l 0).1 ∨ (pt l (l.length - 1)).1 < x ∨
      ∃ i, i + 1 < l.length ∧ (pt l i).1 < x ∧ x ≤ (pt l (i + 1)).1 := by
  rcases Nat.eq_zero_or_pos (lowerBound x l) with h | h
  · left
    have := takeWhile_ge x l (pt l 0) (by rw [h]; exact pt_get h0)
    exact this
  · right
    have hl := lowerBound_le x l
    have h1 := takeWhile_lt x l (lowerBound x l - 1) _ (by omega) (pt_get (by omega))
    rcases Nat.lt_or_ge (lowerBound x l) l.length with h2 | h2
    · right
      refine ⟨lowerBound x l - 1, by omega, h1, ?_⟩
      rw [Nat.sub_add_cancel h]
      exact takeWhile_ge x l _ (pt_get h2)
    · left
      rwa [show lowerBound x l = l.length by omega] at h1

theorem evaluate_total {s : Interp K} (g : Good s) (h0 : 0 < s.data.length) (x : K) :
    ∃ v, evaluate s x = .ok (v, s) := by
  rcases locate h0 x with h | h | ⟨i, hi, h, h'⟩
  · exact ⟨_, evaluate_left h0 h⟩
  · exact ⟨_, evaluate_right g h0 h⟩
  · exact ⟨_, evaluate_inside g hi h h'⟩

theorem fVector_get (s : Interp K) {i : Nat} (hi : i < s.data.length) : (fVector s)[i]? = some (pt s.data i).2 := by
  simp [fVector, pt, hi]

theorem dir_of_mono {l : List (K × K)} (h : NonDecreasing (l.map (·.2))) : Dir (1 : K) l := by
  refine ⟨by ring, fun j hj => ?_⟩
  have := List.pairwise_iff_getElem.1 h j (j + 1) (by simp; omega) (by simpa using hj) (by omega)
  have e : (pt l j).2 ≤ (pt l (j + 1)).2 := by
    have h' : j < l.length := by omega
    simpa [pt, hj, h'] using this
  linarith

theorem dir_of_anti {l : List (K × K)} (h : NonIncreasing (l.map (·.2))) : Dir (-1 : K) l := by
  refine ⟨by ring, fun j hj => ?_⟩
  have := List.pairwise_iff_getElem.1 h j (j + 1) (by simp; omega) (by simpa using hj) (by omega)
  have e : (pt l j).2 ≥ (pt l (j + 1)).2 := by
    have h' : j < l.length := by omega
    simpa [pt, hj, h'] using this
  linarith

theorem Good.slopes_safe {s : Interp K} (g : Good s) (hm : NonDecreasing (fVector s) ∨ NonIncreasing (fVector s))
    {i : Nat} (hi : i + 1 < s.data.length) :
    Safe (pt s.data i) (pt s.data (i + 1)) (slopes s i).1 (slopes s i).2 := by
  have hpq := pt_lt g.asc (i := i) (j := i + 1) (by omega) hi
  unfold slopes
  by_cases he : s.ddata.length = s.data.length
  · rw [if_neg (fun h => h he)]
    obtain ⟨m, hm'⟩ := g.find (by omega) he (i := i) (by omega)
    obtain ⟨n, hn⟩ := g.find (by omega) he (i := i + 1) hi
    rw [hm', hn]
    exact g.safe he hm i m n hi hm' hn
  · rw [if_pos he]
    have := sub_ne_zero.2 hpq.ne'
    refine ⟨1, 1, zero_le_one, by norm_num, zero_le_one, by norm_num, ?_, ?_⟩ <;>
    · unfold chord; field_simp

theorem Dir.le {σ : K} {l : List (K × K)} (h : Dir σ l) {i j : Nat} (hij : i ≤ j) (hj : j < l.length) :
    σ * (pt l i).2 ≤ σ * (pt l j).2 := by
  induction j with
  | zero => rw [show i = 0 by omega]
  | succ j ih =>
    rcases Nat.lt_or_eq_of_le hij with h' | h'
    · have h1 := ih (by omega) (by omega)
      have h2 := h.2 j hj
      linarith
    · rw [h']

/-- In the direction of the data, evaluation is monotone. -/
theorem evaluate_mono {s : Interp K} (g : Good s) (hm : NonDecreasing (fVector s) ∨ NonIncreasing (fVector s))
    {σ : K} (hD : Dir σ s.data) (h0 : 0 < s.data.length) {x y u v : K} (hxy : x ≤ y)
    (hu : evaluate s x = .ok (u, s)) (hv : evaluate s y = .ok (v, s)) : σ * u ≤ σ * v := by
  have inj : ∀ {a b : K}, (Except.ok (a, s) : M (K × Interp K)) = .ok (b, s) → a = b := by
    intro a b e; cases e; rfl
  have lo : ∀ {i : Nat}, i + 1 < s.data.length → ∀ {z}, (pt s.data i).1 ≤ z → z ≤ (pt s.data (i + 1)).1 →
      σ * (pt s.data i).2 ≤ σ * cubic (pt s.data i) (pt s.data (i + 1)) (slopes s i).1 (slopes s i).2 z := by
    intro i hi z h h'
    have := cubic_mono (σ := σ) (pt_lt g.asc (i := i) (j := i + 1) (by omega) hi) (g.slopes_safe hm hi) (hD.2 i hi) le_rfl h h'
    rwa [cubic_left] at this
  have hi' : ∀ {i : Nat}, i + 1 < s.data.length → ∀ {z}, (pt s.data i).1 ≤ z → z ≤ (pt s.data (i + 1)).1 →
      σ * cubic (pt s.data i) (pt s.data (i + 1)) (slopes s i).1 (slopes s i).2 z ≤ σ * (pt s.data (i + 1)).2 := by
    intro i hi z h h'
    have hpq := pt_lt g.asc (i := i) (j := i + 1) (by omega) hi
    have := cubic_mono (σ := σ) hpq (g.slopes_safe hm hi) (hD.2 i hi) h h' le_rfl
    rwa [cubic_right hpq] at this
  rcases locate h0 x with h | h | ⟨i, hi, h, h'⟩
  · have eu := inj (hu.symm.trans (evaluate_left h0 h))
    subst eu
    rcases locate h0 y with k | k | ⟨j, hj, k, k'⟩
    · have ev := inj (hv.symm.trans (evaluate_left h0 k))
      rw [ev]
    · have ev := inj (hv.symm.trans (evaluate_right g h0 k))
      rw [ev]
      exact hD.le (by omega) (by omega)
    · have ev := inj (hv.symm.trans (evaluate_inside g hj k k'))
      rw [ev]
      exact (hD.le (Nat.zero_le j) (by omega)).trans (lo hj k.le k')
  · have eu := inj (hu.symm.trans (evaluate_right g h0 h))
    have ev := inj (hv.symm.trans (evaluate_right g h0 (h.trans_le hxy)))
    rw [eu, ev]
  · have eu := inj (hu.symm.trans (evaluate_inside g hi h h'))
    rw [eu]
    rcases locate h0 y with k | k | ⟨j, hj, k, k'⟩
    · have := pt_le g.asc (i := 0) (j := i) (by omega) (by omega)
      exact absurd (h.trans_le (hxy.trans k)) (not_lt.2 this)
    · have ev := inj (hv.symm.trans (evaluate_right g h0 k))
      rw [ev]
      exact (hi' hi h.le h').trans (hD.le (by omega) (by omega))
    · have ev := inj (hv.symm.trans (evaluate_inside g hj k k'))
      rw [ev]
      rcases Nat.lt_trichotomy i j with e | e | e
      · exact (hi' hi h.le h').trans ((hD.le (by omega) (by omega)).trans (lo hj k.le k'))
      · subst e
        exact cubic_mono (pt_lt g.asc (i := i) (j := i + 1) (by omega) hi) (g.slopes_safe hm hi) (hD.2 i hi) h.le hxy k'
      · have := pt_le g.asc (i := j + 1) (j := i) (by omega) (by omega)
        exact absurd (h.trans_le (hxy.trans k')) (not_lt.2 this)

end Opm.MonotCubic
