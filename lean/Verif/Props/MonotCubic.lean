import Verif.Proofs.MonotCubicOps
import Mathlib.Analysis.Real.Sqrt
/-!
# Properties of the monotone cubic interpolator

All theorems range over every linearly ordered field, every square root function that is not rounded down,
every initial content of the uninitialised flags, every data set and every history of calls.
-/

set_option linter.unusedSectionVars false

namespace Opm.MonotCubic
open Opm Spec

variable {K : Type} [Field K] [LinearOrder K] [IsStrictOrderedRing K]

/-- The hypothesis on the square root is met by the exact one on the real numbers. -/
theorem isRoot_real : IsRoot Real.sqrt := fun y hy => ⟨Real.sqrt_nonneg y, (Real.mul_self_sqrt hy).ge⟩

/-- It is also met by coarse rational bounds. -/
theorem isRoot_rat : IsRoot (fun y : Rat => y + 1) := fun y hy => ⟨by linarith, by nlinarith⟩

/-- `s` is an object that a program can have after constructing an interpolator and making calls. -/
def Reachable (sqrt : K → K) (s : Interp K) : Prop :=
  ∃ c1 c2 fl x f ops s0, construct sqrt c1 c2 fl x f = .ok s0 ∧ run sqrt ops s0 = .ok s

/-- Reachable without a call of `scaleData`. -/
def ReachableUnscaled (sqrt : K → K) (s : Interp K) : Prop :=
  ∃ c1 c2 fl x f ops s0, construct sqrt c1 c2 fl x f = .ok s0 ∧ run sqrt ops s0 = .ok s ∧ ∀ op ∈ ops, op.unscaled

theorem Reachable.good {sqrt : K → K} (hr : IsRoot sqrt) {s : Interp K} (h : Reachable sqrt s) : Good s := by
  obtain ⟨c1, c2, fl, x, f, ops, s0, e0, e⟩ := h
  have hl : x.length = f.length := by
    by_contra hn
    unfold construct at e0
    rw [if_pos hn] at e0
    cases e0
  obtain ⟨t, e1, _, g, _⟩ := construct_good hr c1 c2 fl hl
  rw [e1] at e0
  cases e0
  exact (run_good hr ops g e).1

theorem ReachableUnscaled.reachable {sqrt : K → K} {s : Interp K} (h : ReachableUnscaled sqrt s) : Reachable sqrt s := by
  obtain ⟨c1, c2, fl, x, f, ops, s0, e0, e, _⟩ := h
  exact ⟨c1, c2, fl, x, f, ops, s0, e0, e⟩

theorem ReachableUnscaled.flags {sqrt : K → K} (hr : IsRoot sqrt) {s : Interp K} (h : ReachableUnscaled sqrt s) :
    FlagsOk s := by
  obtain ⟨c1, c2, fl, x, f, ops, s0, e0, e, hu⟩ := h
  have hl : x.length = f.length := by
    by_contra hn
    unfold construct at e0
    rw [if_pos hn] at e0
    cases e0
  obtain ⟨t, e1, _, g, hf⟩ := construct_good hr c1 c2 fl hl
  rw [e1] at e0
  cases e0
  exact (run_good hr ops g e).2 hu hf

/-! ### The data set -/

theorem find_fold (x : K) (l : List (K × K)) : ∀ m,
    find x (l.foldl (fun m p => put p.1 p.2 m) m) = (lastValue x l).or (find x m) := by
  induction l with
  | nil => intro m; simp [lastValue]
  | cons p l ih =>
    intro m
    rw [List.foldl_cons, ih, find_put]
    unfold lastValue
    rw [List.reverse_cons, List.find?_append]
    cases l.reverse.find? (fun q => decide (q.1 = x)) with
    | some q => simp
    | none =>
      by_cases h : x = p.1
      · simp [h]
      · simp [h, Ne.symm h]

/-- Construction from vectors of equal length succeeds; the object then holds, in increasing order of `x`,
exactly the given arguments, each with the last value given for it. -/
theorem construct_data {sqrt : K → K} (hr : IsRoot sqrt) (c1 c2 : Bool) (fl : Flags) {x f : List K}
    (hl : x.length = f.length) :
    ∃ s, construct sqrt c1 c2 fl x f = .ok s ∧ (xVector s).Pairwise (· < ·) ∧
      ∀ a v, (a, v) ∈ (xVector s).zip (fVector s) ↔ lastValue a (x.zip f) = some v := by
  obtain ⟨s, e, d, g, _⟩ := construct_good hr c1 c2 fl hl
  refine ⟨s, e, g.asc, ?_⟩
  intro a v
  have hz : (xVector s).zip (fVector s) = s.data := by
    unfold xVector fVector
    rw [List.zip_map']
    simp
  rw [hz, mem_iff_find g.asc, d, find_fold]
  simp [find]

/-- Vectors of different lengths are rejected. -/
theorem construct_rejects (sqrt : K → K) (c1 c2 : Bool) (fl : Flags) {x f : List K} (hl : x.length ≠ f.length) :
    construct sqrt c1 c2 fl x f = .error .thrown := by
  unfold construct
  rw [if_pos hl]

theorem zip_vectors (s : Interp K) : (xVector s).zip (fVector s) = s.data := by
  unfold xVector fVector
  rw [List.zip_map']
  simp

/-- In every reachable object the arguments are strictly increasing. -/
theorem arguments_increase {sqrt : K → K} (hr : IsRoot sqrt) {s : Interp K} (h : Reachable sqrt s) :
    (xVector s).Pairwise (· < ·) := (h.good hr).asc

/-- `addPair` succeeds; it sets the value at the new argument and changes no other point. -/
theorem addPair_data {sqrt : K → K} (hr : IsRoot sqrt) {s : Interp K} (h : Reachable sqrt s) (x f : K) :
    ∃ s', addPair sqrt x f s = .ok s' ∧ Reachable sqrt s' ∧
      ∀ a v, (a, v) ∈ (xVector s').zip (fVector s') ↔
        (a = x ∧ v = f) ∨ (a ≠ x ∧ (a, v) ∈ (xVector s).zip (fVector s)) := by
  have g := h.good hr
  obtain ⟨s', e, d, g', _⟩ := addPair_good hr g x f
  refine ⟨s', e, ?_, ?_⟩
  · obtain ⟨c1, c2, fl, xs, fs, ops, s0, e0, e1⟩ := h
    refine ⟨c1, c2, fl, xs, fs, ops ++ [.addPair x f], s0, e0, ?_⟩
    unfold run at *
    rw [List.foldlM_append, e1, bind_ok]
    simp [step, e]
  · intro a v
    rw [zip_vectors, zip_vectors, mem_iff_find g'.asc, d, find_put, mem_iff_find g.asc]
    by_cases ha : a = x
    · simp [ha, eq_comm]
    · simp [ha]

/-- `scaleData` multiplies every value and keeps the arguments. -/
theorem scaleData_data' (c : K) (s : Interp K) :
    xVector (scaleData c s) = xVector s ∧ fVector (scaleData c s) = (fVector s).map (· * c) := by
  unfold xVector fVector
  rw [scaleData_data]
  simp [scaled]

/-! ### Evaluation -/

/-- Evaluation of a non-empty reachable object always succeeds and does not change the object. -/
theorem evaluate_succeeds {sqrt : K → K} (hr : IsRoot sqrt) {s : Interp K} (h : Reachable sqrt s)
    (hne : xVector s ≠ []) (x : K) : ∃ v, evaluate s x = .ok (v, s) := by
  refine evaluate_total (h.good hr) ?_ x
  have : (xVector s).length ≠ 0 := fun h => hne (List.eq_nil_of_length_eq_zero h)
  simp only [xVector, List.length_map] at this
  omega

/-- Evaluation of an empty object dereferences the end of the map. -/
theorem evaluate_empty {s : Interp K} (he : xVector s = []) (x : K) : evaluate s x = .error .ub := by
  have : s.data = [] := by simpa [xVector] using he
  unfold evaluate
  rw [this]
  rfl

/-- Evaluation at a data point gives the data value. -/
theorem evaluate_reproduces {sqrt : K → K} (hr : IsRoot sqrt) {s : Interp K} (h : Reachable sqrt s) {x f : K}
    (hm : (x, f) ∈ (xVector s).zip (fVector s)) : evaluate s x = .ok (f, s) := by
  rw [zip_vectors] at hm
  obtain ⟨i, hi, e⟩ := mem_pt hm
  have := evaluate_node (h.good hr) hi
  rw [e] at this
  exact this

/-- Left of the data, evaluation gives the first value, right of the data the last one. -/
theorem evaluate_outside {sqrt : K → K} (hr : IsRoot sqrt) {s : Interp K} (h : Reachable sqrt s) {x : K} :
    (∀ v, (fVector s).head? = some v → (∀ a ∈ xVector s, x ≤ a) → evaluate s x = .ok (v, s)) ∧
    (∀ v, (fVector s).getLast? = some v → (∀ a ∈ xVector s, a ≤ x) → evaluate s x = .ok (v, s)) := by
  have g := h.good hr
  constructor
  · intro v hv hx
    have hl : 0 < s.data.length := by
      rcases Nat.eq_zero_or_pos s.data.length with h0 | h0
      · have : s.data = [] := List.eq_nil_of_length_eq_zero h0
        simp [fVector, this] at hv
      · exact h0
    have e : v = (pt s.data 0).2 := by
      rw [List.head?_eq_getElem?, fVector_get s hl] at hv
      exact (Option.some.inj hv).symm
    rw [e]
    exact evaluate_left hl (hx _ (List.mem_map.2 ⟨_, pt_mem hl, rfl⟩))
  · intro v hv hx
    have hl : 0 < s.data.length := by
      rcases Nat.eq_zero_or_pos s.data.length with h0 | h0
      · have : s.data = [] := List.eq_nil_of_length_eq_zero h0
        simp [fVector, this] at hv
      · exact h0
    have e : v = (pt s.data (s.data.length - 1)).2 := by
      rw [List.getLast?_eq_getElem?] at hv
      have hlen : (fVector s).length = s.data.length := by simp [fVector]
      rw [hlen, fVector_get s (by omega)] at hv
      exact (Option.some.inj hv).symm
    rw [e]
    rcases lt_or_eq_of_le (hx _ (List.mem_map.2 ⟨_, pt_mem (i := s.data.length - 1) (by omega), rfl⟩)) with h1 | h1
    · exact evaluate_right g hl h1
    · rw [← h1]
      exact evaluate_node g (by omega)

/-- If the data values never decrease (increase), neither does the interpolant, on the whole line. -/
theorem evaluate_monotone {sqrt : K → K} (hr : IsRoot sqrt) {s : Interp K} (h : Reachable sqrt s)
    (hne : xVector s ≠ []) :
    (NonDecreasing (fVector s) → ∀ x y u v, x ≤ y → evaluate s x = .ok (u, s) → evaluate s y = .ok (v, s) → u ≤ v) ∧
    (NonIncreasing (fVector s) → ∀ x y u v, x ≤ y → evaluate s x = .ok (u, s) → evaluate s y = .ok (v, s) → v ≤ u) := by
  have hl : 0 < s.data.length := by
    have : (xVector s).length ≠ 0 := fun h => hne (List.eq_nil_of_length_eq_zero h)
    simp only [xVector, List.length_map] at this
    omega
  constructor
  · intro hm x y u v hxy hu hv
    have := evaluate_mono (h.good hr) (Or.inl hm) (dir_of_mono hm) hl hxy hu hv
    linarith
  · intro hm x y u v hxy hu hv
    have := evaluate_mono (h.good hr) (Or.inr hm) (dir_of_anti hm) hl hxy hu hv
    linarith

/-- Monotone data: between two neighbouring data points the interpolant stays between their values. -/
theorem evaluate_between {sqrt : K → K} (hr : IsRoot sqrt) {s : Interp K} (h : Reachable sqrt s) {p q : K × K} {x v : K}
    (hm : NonDecreasing (fVector s) ∨ NonIncreasing (fVector s))
    (hp : p ∈ (xVector s).zip (fVector s)) (hq : q ∈ (xVector s).zip (fVector s)) (h1 : p.1 ≤ x) (h2 : x ≤ q.1)
    (hv : evaluate s x = .ok (v, s)) : min p.2 q.2 ≤ v ∧ v ≤ max p.2 q.2 := by
  have ep := evaluate_reproduces hr h (x := p.1) (f := p.2) hp
  have eq := evaluate_reproduces hr h (x := q.1) (f := q.2) hq
  have hne : xVector s ≠ [] := by
    intro e
    rw [e] at hp
    simp at hp
  rcases hm with hm | hm
  · have a := (evaluate_monotone hr h hne).1 hm _ _ _ _ h1 ep hv
    have b := (evaluate_monotone hr h hne).1 hm _ _ _ _ h2 hv eq
    exact ⟨(min_le_left _ _).trans a, b.trans (le_max_right _ _)⟩
  · have a := (evaluate_monotone hr h hne).2 hm _ _ _ _ h1 ep hv
    have b := (evaluate_monotone hr h hne).2 hm _ _ _ _ h2 hv eq
    exact ⟨(min_le_right _ _).trans b, a.trans (le_max_left _ _)⟩

/-- Right after construction or `addPair`, with at least two points, the interpolant is on every interval the
cubic polynomial through the two points with slopes `m i`.  The slopes are the mean slopes if the data is not
monotone; if it is, they are the mean slopes reduced by factors between 0 and 1, and no slope is reduced
unless some interval is flat or violates the Fritsch-Carlson condition. -/
theorem evaluate_is_cubic {sqrt : K → K} (hr : IsRoot sqrt) {s s' : Interp K} {x f : K}
    (h : Reachable sqrt s ∧ addPair sqrt x f s = .ok s' ∨
      ∃ c1 c2 fl xs fs, construct sqrt c1 c2 fl xs fs = .ok s') (h2 : 2 ≤ getSize s') :
    ∃ m : Nat → K,
      (∀ i y, i + 1 < s'.data.length → (pt s'.data i).1 ≤ y → y ≤ (pt s'.data (i + 1)).1 →
        evaluate s' y = .ok (cubic (pt s'.data i) (pt s'.data (i + 1)) (m i) (m (i + 1)) y, s')) ∧
      (¬ (NonDecreasing (fVector s') ∨ NonIncreasing (fVector s')) → ∀ i, i < s'.data.length → m i = meanSlope s'.data i) ∧
      (∀ i, i < s'.data.length → ∃ c, 0 ≤ c ∧ c ≤ 1 ∧ m i = c * meanSlope s'.data i) ∧
      ((∀ i, i + 1 < s'.data.length → Moderate s'.data i) → ∀ i, i < s'.data.length → m i = meanSlope s'.data i) := by
  have key : Good s' ∧ Computed s' := by
    rcases h with ⟨h, e⟩ | ⟨c1, c2, fl, xs, fs, e⟩
    · have ha := asc_put x f (h.good hr).asc
      unfold addPair at e
      rcases Nat.lt_or_ge (put x f s.data).length 2 with hs | hs
      · rw [compute_small sqrt (by simp only; omega)] at e
        cases e
        unfold getSize at h2
        simp only at h2
        omega
      · obtain ⟨t, et, hd, hc⟩ := compute_ok (s := { s with data := put x f s.data }) hr ha hs
        rw [et] at e
        cases e
        exact ⟨hc.good (by rw [hd]; exact ha), hc⟩
    · have hl : xs.length = fs.length := by
        by_contra hn
        rw [construct_rejects sqrt c1 c2 fl hn] at e
        cases e
      unfold construct at e
      rw [if_neg (fun h => h hl)] at e
      have ha := fold_put_asc (xs.zip fs) [] (by simp [Asc, keys])
      rcases Nat.lt_or_ge ((xs.zip fs).foldl (fun m p => put p.1 p.2 m) []).length 2 with hs | hs
      · rw [compute_small sqrt (by simp only; omega)] at e
        cases e
        unfold getSize at h2
        simp only at h2
        omega
      · obtain ⟨t, et, hd, hc⟩ := compute_ok (s := { fresh K c1 c2 fl with data := (xs.zip fs).foldl (fun m p => put p.1 p.2 m) [] }) hr ha hs
        rw [et] at e
        cases e
        exact ⟨hc.good (by rw [hd]; exact ha), hc⟩
  obtain ⟨g, hc⟩ := key
  have h2 : 2 ≤ s'.data.length := h2
  have hlen : s'.ddata.length = s'.data.length := by
    have := congrArg List.length hc.keys_eq
    simpa [keys] using this
  refine ⟨fun i => (find (pt s'.data i).1 s'.ddata).getD 0, ?_, ?_, ?_, ?_⟩
  · intro i y hi hy hy'
    rw [evaluate_piece g hi hy hy']
    simp only [slopes, if_neg (fun h : s'.ddata.length ≠ s'.data.length => h hlen)]
  · intro hn i hi
    simp only [hc.rough hn i hi, Option.getD_some]
  · intro i hi
    by_cases hm : Mono (fVector s')
    · obtain ⟨c, hA⟩ := hc.smooth hm
      refine ⟨c i, (hA.unit i).1, (hA.unit i).2, ?_⟩
      simp only [hA.value i hi, Option.getD_some]
    · refine ⟨1, zero_le_one, le_rfl, ?_⟩
      simp only [hc.rough hm i hi, Option.getD_some, one_mul]
  · intro hM i hi
    by_cases hm : Mono (fVector s')
    · obtain ⟨c, hA⟩ := hc.smooth hm
      simp only [hA.value i hi, Option.getD_some, hA.kept (fun j hj => hM j (by omega)) i, one_mul]
    · simp only [hc.rough hm i hi, Option.getD_some]

/-! ### Monotonicity queries and extreme values -/

theorem query_exact {sqrt : K → K} (hr : IsRoot sqrt) {s : Interp K} (h : ReachableUnscaled sqrt s)
    (h2 : 2 ≤ getSize s) (b : Bool) (hb : b = true → s.strictlyMonotoneCached = true ∨ s.monotoneCached = true) :
    ∃ s', refresh sqrt b s = .ok s' ∧ s'.data = s.data ∧ Exact (fVector s) s'.flags := by
  obtain ⟨s', e, d, g, f, c, t⟩ := refresh_good hr (h.reachable.good hr) b
  refine ⟨s', e, d, ?_⟩
  cases b with
  | true => rw [t rfl]; exact (h.flags hr).cached h2 (hb rfl)
  | false =>
    have := (c rfl h2).exact
    rwa [show fVector s' = fVector s by simp [fVector, d]] at this

/-- The six monotonicity queries of an object with at least two points answer correctly and do not change
the data, whatever calls were made before, except `scaleData`. -/
theorem queries_exact {sqrt : K → K} (hr : IsRoot sqrt) {s : Interp K} (h : ReachableUnscaled sqrt s)
    (h2 : 2 ≤ getSize s) :
    (∃ b s', isMonotone sqrt s = .ok (b, s') ∧ s'.data = s.data ∧
      (b = true ↔ NonDecreasing (fVector s) ∨ NonIncreasing (fVector s))) ∧
    (∃ b s', isStrictlyMonotone sqrt s = .ok (b, s') ∧ s'.data = s.data ∧
      (b = true ↔ Increasing (fVector s) ∨ Decreasing (fVector s))) ∧
    (∃ b s', isMonotoneIncreasing sqrt s = .ok (b, s') ∧ s'.data = s.data ∧ (b = true ↔ NonDecreasing (fVector s))) ∧
    (∃ b s', isMonotoneDecreasing sqrt s = .ok (b, s') ∧ s'.data = s.data ∧ (b = true ↔ NonIncreasing (fVector s))) ∧
    (∃ b s', isStrictlyIncreasing sqrt s = .ok (b, s') ∧ s'.data = s.data ∧ (b = true ↔ Increasing (fVector s))) ∧
    (∃ b s', isStrictlyDecreasing sqrt s = .ok (b, s') ∧ s'.data = s.data ∧ (b = true ↔ Decreasing (fVector s))) := by
  obtain ⟨s1, e1, d1, x1⟩ := query_exact hr h h2 s.monotoneCached Or.inr
  obtain ⟨s2, e2, d2, x2⟩ := query_exact hr h h2 s.strictlyMonotoneCached Or.inl
  refine ⟨⟨_, s1, ?_, d1, x1.mono⟩, ⟨_, s2, ?_, d2, x2.strict⟩, ⟨_, s1, ?_, d1, x1.inc⟩, ⟨_, s1, ?_, d1, x1.dec⟩,
    ⟨_, s2, ?_, d2, x2.sinc⟩, ⟨_, s2, ?_, d2, x2.sdec⟩⟩
  · simp only [isMonotone, e1, bind_ok]
  · simp only [isStrictlyMonotone, e2, bind_ok]
  · simp only [isMonotoneIncreasing, e1, bind_ok]
  · simp only [isMonotoneDecreasing, e1, bind_ok]
  · simp only [isStrictlyIncreasing, e2, bind_ok]
  · simp only [isStrictlyDecreasing, e2, bind_ok]

/-- `getMaximumF` and `getMinimumF` return a data point with the largest and the smallest value, whatever
calls were made before, except `scaleData`. -/
theorem extreme_values {sqrt : K → K} (hr : IsRoot sqrt) {s : Interp K} (h : ReachableUnscaled sqrt s)
    (h2 : 2 ≤ getSize s) :
    (∃ p ∈ (xVector s).zip (fVector s), getMaximumF s = .ok p ∧ ∀ f ∈ fVector s, f ≤ p.2) ∧
    (∃ p ∈ (xVector s).zip (fVector s), getMinimumF s = .ok p ∧ ∀ f ∈ fVector s, p.2 ≤ f) := by
  rw [zip_vectors]
  have hf := h.flags hr
  constructor
  · obtain ⟨p, hp, e, hm⟩ := getMaximumF_ok hf h2
    refine ⟨p, hp, e, fun f hf => ?_⟩
    obtain ⟨q, hq, rfl⟩ := List.mem_map.1 hf
    exact hm q hq
  · obtain ⟨p, hp, e, hm⟩ := getMinimumF_ok hf h2
    refine ⟨p, hp, e, fun f hf => ?_⟩
    obtain ⟨q, hq, rfl⟩ := List.mem_map.1 hf
    exact hm q hq

/-- The object a computation results in, for the concrete cases below. -/
def result (r : M (Interp Rat)) : Interp Rat :=
  match r with
  | .ok s => s
  | .error _ => fresh Rat true true ⟨true, true, true, true, true, true⟩

/-- A concrete object with a coarse square root. -/
def demo (x f : List Rat) : M (Interp Rat) :=
  construct (fun y => y + 1) true true ⟨true, true, true, true, true, true⟩ x f

/-- `scaleData` breaks both: after scaling increasing data by `-1`, `getMaximumF` returns the smallest value and
the object still claims to be strictly increasing. -/
theorem scale_keeps_flags : ∃ s : Interp Rat, Reachable (fun y => y + 1) s ∧ fVector s = [0, -1] ∧
    getMaximumF s = .ok (1, -1) ∧ getMinimumF s = .ok (0, 0) ∧
    ∃ s', isStrictlyIncreasing (fun y => y + 1) s = .ok (true, s') := by
  refine ⟨result (demo [0, 1] [0, 1] >>= run (fun y => y + 1) [.scaleData (-1)]),
    ⟨true, true, ⟨true, true, true, true, true, true⟩, [0, 1], [0, 1], [.scaleData (-1)], result (demo [0, 1] [0, 1]), ?_, ?_⟩, ?_, ?_, ?_,
    result (demo [0, 1] [0, 1] >>= run (fun y => y + 1) [.scaleData (-1)]), ?_⟩ <;> decide +kernel

/-- The size of the largest jump, and its middle, if the compiler evaluates the left operand first. -/
theorem missingX_middle {sqrt : K → K} {s : Interp K} (_h : Reachable sqrt s) (h2 : 2 ≤ getSize s) :
    ∃ x d i, getMissingX true s = .ok (x, d) ∧ i + 1 < s.data.length ∧
      x = ((pt s.data i).1 + (pt s.data (i + 1)).1) / 2 ∧ d = |(pt s.data (i + 1)).2 - (pt s.data i).2| ∧
      ∀ j, j + 1 < s.data.length → |(pt s.data (j + 1)).2 - (pt s.data j).2| ≤ d := by
  have h2 : 2 ≤ s.data.length := h2
  obtain ⟨r, e, h1, h3, h4⟩ := largestJump_ok h2
  unfold getMissingX
  rw [if_neg (by omega), e, bind_ok]
  simp only [if_true]
  rw [rd_pt (by omega), bind_ok, rd_pt h1, bind_ok]
  exact ⟨_, _, r.1, rfl, h1, rfl, h3, h4⟩

/-- If the compiler evaluates the right operand first, the "missing" argument is one that is already there. -/
theorem missingX_unspecified {s : Interp K} (h2 : 2 ≤ getSize s) :
    ∃ x d, getMissingX false s = .ok (x, d) ∧ x ∈ xVector s := by
  have h2 : 2 ≤ s.data.length := h2
  obtain ⟨r, e, h1, h3, h4⟩ := largestJump_ok h2
  unfold getMissingX
  rw [if_neg (by omega), e, bind_ok]
  simp only [Bool.false_eq_true, if_false]
  rw [rd_pt h1, bind_ok, bind_ok]
  refine ⟨_, _, rfl, ?_⟩
  rw [add_self_div_two]
  exact List.mem_map.2 ⟨_, pt_mem h1, rfl⟩

/-! ### Removing flat parts -/

/-- `shrinkFlatAreas(epsilon)` always succeeds.  Monotone data that is not strictly monotone is thinned out; if
`epsilon` is positive the result is strictly monotone.  Other data is left alone. -/
theorem shrink_thins {sqrt : K → K} (hr : IsRoot sqrt) {s : Interp K} (h : ReachableUnscaled sqrt s) (eps : K) :
    ∃ s', shrinkFlatAreas sqrt eps s = .ok s' ∧
      (2 ≤ getSize s → NonDecreasing (fVector s) ∨ NonIncreasing (fVector s) →
        ¬ (Increasing (fVector s) ∨ Decreasing (fVector s)) → Thinned eps s.data s'.data ∧
        (0 < eps → Increasing (fVector s') ∨ Decreasing (fVector s'))) ∧
      (¬ (NonDecreasing (fVector s) ∨ NonIncreasing (fVector s)) ∨ Increasing (fVector s) ∨ Decreasing (fVector s) →
        s'.data = s.data) := by
  have g := h.reachable.good hr
  have hf := h.flags hr
  obtain ⟨s', e, g', _, _, h1, h2⟩ := shrink_ok hr g eps
  refine ⟨s', e, ?_, fun ho => h2 hf (Or.inr ho)⟩
  intro hs hm hn
  have hd := h1 hf hs hm hn
  have hth := shrinkList_thinned eps g.asc
  rw [← hd] at hth
  refine ⟨hth, fun he => ?_⟩
  have hne : ∀ i, i + 1 < s'.data.length → (pt s'.data i).2 ≠ (pt s'.data (i + 1)).2 := by
    intro i hi heq
    have := hth.apart i _ _ (pt_get (by omega)) (pt_get hi)
    rw [heq, sub_self, abs_zero] at this
    exact absurd he (not_lt.2 this)
  rcases hm with hm | hm
  · left
    have hD := dir_of_mono (nd_sublist hm hth.sublist)
    rw [in_chain, List.isChain_iff_getElem]
    intro i hi
    have hi' : i + 1 < s'.data.length := by simpa [fVector] using hi
    have hle := hD.2 i hi'
    have := lt_of_le_of_ne (by linarith : (pt s'.data i).2 ≤ (pt s'.data (i + 1)).2) (hne i hi')
    have hi0 : i < s'.data.length := by omega
    simpa [fVector, pt, hi', hi0] using this
  · right
    have hD := dir_of_anti (ni_sublist hm hth.sublist)
    rw [de_chain, List.isChain_iff_getElem]
    intro i hi
    have hi' : i + 1 < s'.data.length := by simpa [fVector] using hi
    have hle := hD.2 i hi'
    have := lt_of_le_of_ne (by linarith : (pt s'.data (i + 1)).2 ≤ (pt s'.data i).2) (Ne.symm (hne i hi'))
    have hi0 : i < s'.data.length := by omega
    simpa [fVector, pt, hi', hi0] using this

/-- `chopFlatEndpoints(epsilon)` never removes anything: if there is a flat end to chop (and at least three
points), the call has undefined behaviour; otherwise the data stays as it is. -/
theorem chop_never_chops {sqrt : K → K} (hr : IsRoot sqrt) {s : Interp K} (h : Reachable sqrt s) (eps : K) :
    (chopFlatEndpoints sqrt eps s = .error .ub ↔ 3 ≤ getSize s ∧
      (|(pt s.data 0).2 - (pt s.data 1).2| < eps ∨
        |(pt s.data (s.data.length - 1)).2 - (pt s.data (s.data.length - 2)).2| < eps)) ∧
    ∀ s', chopFlatEndpoints sqrt eps s = .ok s' → s'.data = s.data := by
  rcases chop_ok hr (h.good hr) eps with ⟨t, e, d, _, _, hk⟩ | ⟨e, h3, ho⟩
  · refine ⟨⟨fun e' => (by rw [e] at e'; cases e'), ?_⟩, fun s' e' => by rw [e] at e'; cases e'; exact d⟩
    rintro ⟨h3, ho⟩
    obtain ⟨k1, k2⟩ := hk h3
    rcases ho with ho | ho
    · exact absurd ho (not_lt.2 k1)
    · exact absurd ho (not_lt.2 k2)
  · exact ⟨⟨fun _ => ⟨h3, ho⟩, fun _ => e⟩, fun s' e' => by rw [e] at e'; cases e'⟩

/-! ### Concrete cases -/

/-- The example of the class documentation makes `chopFlatEndpoints` undefined. -/
example : ∃ s : Interp Rat, demo [1, 2, 3, 4, 5, 6] [3, 3, 4, 5, 5, 5] = .ok s ∧
    chopFlatEndpoints (fun y => y + 1) (1 / 100) s = .error .ub :=
  ⟨result (demo [1, 2, 3, 4, 5, 6] [3, 3, 4, 5, 5, 5]), by decide +kernel, by decide +kernel⟩

/-- Unsorted data with a repeated argument; the history adds a point, thins and scales. -/
example : ∃ s : Interp Rat, Reachable (fun y => y + 1) s ∧ xVector s = [0, 1, 2, 4] ∧ fVector s = [0, 2, 4, 20] ∧
    evaluate s 2 = .ok (4, s) ∧ evaluate s 7 = .ok (20, s) ∧ evaluate s (-1) = .ok (0, s) := by
  refine ⟨result (demo [2, 0, 1, 2] [7, 0, 1, 2] >>= run (fun y => y + 1)
      [.addPair 3 2, .addPair 4 10, .shrinkFlatAreas (1 / 10), .scaleData 2, .evaluate 3, .isMonotone]),
    ⟨true, true, ⟨true, true, true, true, true, true⟩, [2, 0, 1, 2], [7, 0, 1, 2],
    [.addPair 3 2, .addPair 4 10, .shrinkFlatAreas (1 / 10), .scaleData 2, .evaluate 3, .isMonotone],
    result (demo [2, 0, 1, 2] [7, 0, 1, 2]), ?_, ?_⟩, ?_, ?_, ?_, ?_, ?_⟩ <;> decide +kernel

/-- A steep jump: the slopes are reduced and the curve stays within the data. -/
example : ∃ (s : Interp Rat) (v : Rat), ReachableUnscaled (fun y => y + 1) s ∧ NonDecreasing (fVector s) ∧
    evaluate s (3 / 2) = .ok (v, s) ∧ 1 < v ∧ v < 100 := by
  refine ⟨result (demo [0, 1, 2, 3] [0, 1, 100, 101]), 101 / 2,
    ⟨true, true, ⟨true, true, true, true, true, true⟩, [0, 1, 2, 3], [0, 1, 100, 101], [], result (demo [0, 1, 2, 3] [0, 1, 100, 101]), ?_, rfl, by simp⟩, ?_, ?_, ?_, ?_⟩
  · decide +kernel
  · unfold NonDecreasing; decide +kernel
  · decide +kernel
  · decide +kernel
  · decide +kernel

/-- For data that is not monotone the interpolant may leave the range of its interval. -/
theorem overshoots_rough_data : ∃ (s : Interp Rat) (v : Rat), Reachable (fun y => y + 1) s ∧
    evaluate s 0 = .ok (0, s) ∧ evaluate s 1 = .ok (0, s) ∧ evaluate s (1 / 2) = .ok (v, s) ∧ v < 0 := by
  refine ⟨result (demo [0, 1, 2, 3] [0, 0, 1, 0]), -1 / 16,
    ⟨true, true, ⟨true, true, true, true, true, true⟩, [0, 1, 2, 3], [0, 0, 1, 0], [], result (demo [0, 1, 2, 3] [0, 0, 1, 0]), ?_, rfl⟩, ?_, ?_, ?_, ?_⟩ <;> decide +kernel

/-- Moderate data: no slope is reduced. -/
example : ∀ i, i + 1 < ([(0, 0), (1, 1), (2, 3)] : List (Rat × Rat)).length → Moderate ([(0, 0), (1, 1), (2, 3)] : List (Rat × Rat)) i := by
  intro i hi
  have : i = 0 ∨ i = 1 := by simp at hi; omega
  rcases this with rfl | rfl <;> norm_num [Moderate, chord, meanSlope, pt, abs_of_pos]

end Opm.MonotCubic
