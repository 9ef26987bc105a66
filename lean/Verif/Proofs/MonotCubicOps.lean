import Verif.Proofs.MonotCubicEval
/-! # The monotone cubic interpolator: modifying calls and histories -/

set_option linter.unusedSectionVars false

namespace Opm.MonotCubic
open Opm Spec

variable {K : Type} [Field K] [LinearOrder K] [IsStrictOrderedRing K]

/-- The values of a data set are monotone. -/
abbrev Mono (fs : List K) : Prop := NonDecreasing fs ∨ NonIncreasing fs

/-- What `computeInternalFunctionData` establishes for at least two points. -/
structure Computed (s : Interp K) : Prop where
  c1 : s.strictlyMonotoneCached = true
  c2 : s.monotoneCached = true
  exact : Exact (fVector s) s.flags
  keys_eq : keys s.ddata = keys s.data
  rough : ¬ Mono (fVector s) → ∀ j, j < s.data.length → find (pt s.data j).1 s.ddata = some (meanSlope s.data j)
  smooth : Mono (fVector s) → ∃ c, Adjusted s.data (s.data.length - 1) c s.ddata

theorem compute_small (sqrt : K → K) {s : Interp K} (h : s.data.length ≤ 1) : compute sqrt s = .ok s := by
  unfold compute
  rw [if_pos h]

theorem compute_ok {sqrt : K → K} (hr : IsRoot sqrt) {s : Interp K} (ha : Asc s.data) (h2 : 2 ≤ s.data.length) :
    ∃ s', compute sqrt s = .ok s' ∧ s'.data = s.data ∧ Computed s' := by
  unfold compute
  rw [if_neg (by omega)]
  obtain ⟨fl, e, hE⟩ := computeFlags_ok (s.data.map (·.2))
  obtain ⟨d, ed, hk, hv⟩ := simpleDerivatives_ok ha h2
  rw [e, bind_ok]
  unfold derivatives
  rw [ed, bind_ok]
  by_cases hm : fl.monotone = true
  · rw [if_pos hm]
    have : ∃ σ : K, Dir σ s.data := by
      rcases hE.mono.1 hm with h | h
      · exact ⟨1, dir_of_mono h⟩
      · exact ⟨-1, dir_of_anti h⟩
    obtain ⟨σ, hD⟩ := this
    obtain ⟨d', e', c, hc⟩ := adjustDerivatives_ok hr ha hD hk hv
    rw [e', bind_ok]
    exact ⟨_, rfl, rfl, rfl, rfl, hE, hc.keys_eq, fun h => absurd (hE.mono.1 hm) h, fun _ => ⟨c, hc⟩⟩
  · rw [if_neg hm, bind_ok]
    exact ⟨_, rfl, rfl, rfl, rfl, hE, hk, fun _ => hv, fun h => absurd (hE.mono.2 h) hm⟩

theorem Computed.good {s : Interp K} (ha : Asc s.data) (h : Computed s) : Good s := by
  have hl : s.ddata.length = s.data.length := by
    have := congrArg List.length h.keys_eq
    simpa [keys] using this
  refine ⟨ha, fun _ => hl.ge, fun _ _ => h.keys_eq, ?_⟩
  intro _ hm i m n hi e1 e2
  obtain ⟨c, hc⟩ := h.smooth hm
  have f1 := hc.value i (by omega)
  have f2 := hc.value (i + 1) hi
  rw [e1, Option.some.injEq] at f1
  rw [e2, Option.some.injEq] at f2
  rw [f1, f2]
  exact hc.safe i (by omega) hi

/-- The flags are right whenever they are used: exact if a cache flag is set, and never misleading for the
extreme values.  (`scaleData` does not keep this.) -/
structure FlagsOk (s : Interp K) : Prop where
  cached : 2 ≤ s.data.length → s.strictlyMonotoneCached = true ∨ s.monotoneCached = true → Exact (fVector s) s.flags
  up : 2 ≤ s.data.length → s.flags.strictlyIncreasing = true → NonDecreasing (fVector s)
  down : 2 ≤ s.data.length → s.flags.strictlyDecreasing = true → NonIncreasing (fVector s)

theorem Computed.flagsOk {s : Interp K} (h : Computed s) : FlagsOk s :=
  ⟨fun _ _ => h.exact, fun _ => h.exact.up, fun _ => h.exact.down⟩

theorem good_small {s : Interp K} (ha : Asc s.data) (h : s.data.length ≤ 1) : Good s :=
  ⟨ha, fun h' => by omega, fun h' => by omega, fun _ _ i _ _ hi => by omega⟩

theorem flags_small {s : Interp K} (h : s.data.length ≤ 1) : FlagsOk s :=
  ⟨fun h' => by omega, fun h' => by omega, fun h' => by omega⟩

/-- Recomputation of ordered data. -/
theorem compute_good {sqrt : K → K} (hr : IsRoot sqrt) {s : Interp K} (ha : Asc s.data) :
    ∃ s', compute sqrt s = .ok s' ∧ s'.data = s.data ∧ Good s' ∧ FlagsOk s' := by
  rcases Nat.lt_or_ge s.data.length 2 with h | h
  · exact ⟨s, compute_small sqrt (by omega), rfl, good_small ha (by omega), flags_small (by omega)⟩
  · obtain ⟨s', e, hd, hc⟩ := compute_ok hr ha h
    exact ⟨s', e, hd, hc.good (by rw [hd]; exact ha), hc.flagsOk⟩

theorem refresh_good {sqrt : K → K} (hr : IsRoot sqrt) {s : Interp K} (g : Good s) (b : Bool) :
    ∃ s', refresh sqrt b s = .ok s' ∧ s'.data = s.data ∧ Good s' ∧ (FlagsOk s → FlagsOk s') ∧
      (b = false → 2 ≤ s.data.length → Computed s') ∧ (b = true → s' = s) := by
  unfold refresh
  cases b with
  | true => exact ⟨s, rfl, rfl, g, id, fun h => by simp at h, fun _ => rfl⟩
  | false =>
    rcases Nat.lt_or_ge s.data.length 2 with h | h
    · exact ⟨s, compute_small sqrt (by omega), rfl, g, id, fun _ h' => by omega, fun h => by simp at h⟩
    · obtain ⟨s', e, hd, hc⟩ := compute_ok hr g.asc h
      exact ⟨s', e, hd, hc.good (by rw [hd]; exact g.asc), fun _ => hc.flagsOk, fun _ _ => hc, fun h => by simp at h⟩

theorem fold_put_asc (l m : List (K × K)) (h : Asc m) : Asc (l.foldl (fun m p => put p.1 p.2 m) m) := by
  induction l generalizing m with
  | nil => exact h
  | cons p l ih => exact ih _ (asc_put _ _ h)

theorem construct_good {sqrt : K → K} (hr : IsRoot sqrt) (c1 c2 : Bool) (fl : Flags) {x f : List K}
    (hl : x.length = f.length) :
    ∃ s, construct sqrt c1 c2 fl x f = .ok s ∧ s.data = (x.zip f).foldl (fun m p => put p.1 p.2 m) [] ∧
      Good s ∧ FlagsOk s := by
  unfold construct
  rw [if_neg (fun h => h hl)]
  exact compute_good hr (fold_put_asc _ _ (by simp [Asc, keys]))

theorem addPair_good {sqrt : K → K} (hr : IsRoot sqrt) {s : Interp K} (g : Good s) (x f : K) :
    ∃ s', addPair sqrt x f s = .ok s' ∧ s'.data = put x f s.data ∧ Good s' ∧ FlagsOk s' := by
  unfold addPair
  exact compute_good (s := { s with data := put x f s.data }) hr (asc_put _ _ g.asc)

/-! ### Scaling -/

/-- A map with scaled values. -/
def scaled (c : K) (m : List (K × K)) : List (K × K) := m.map (fun p => (p.1, p.2 * c))

theorem keys_scaled (c : K) (m : List (K × K)) : keys (scaled c m) = keys m := by simp [keys, scaled]

theorem find_scaled (c k : K) (m : List (K × K)) : find k (scaled c m) = (find k m).map (· * c) := by
  induction m with
  | nil => rfl
  | cons p m ih =>
    show find k ((p.1, p.2 * c) :: scaled c m) = _
    simp only [find, ih]
    split <;> rfl

theorem pt_scaled (c : K) {m : List (K × K)} {i : Nat} (h : i < m.length) :
    pt (scaled c m) i = ((pt m i).1, (pt m i).2 * c) := by
  simp [pt, scaled, h]

theorem Safe.scaled {p q : K × K} {m n : K} (h : Safe p q m n) (c : K) :
    Safe (p.1, p.2 * c) (q.1, q.2 * c) (m * c) (n * c) := by
  obtain ⟨a, b, h1, h2, h3, h4, e1, e2⟩ := h
  refine ⟨a, b, h1, h2, h3, h4, ?_, ?_⟩
  · simp only; linear_combination c * e1
  · simp only; linear_combination c * e2

theorem mono_unscale {c : K} (hc : c ≠ 0) {fs : List K} (h : Mono (fs.map (· * c))) : Mono fs := by
  rcases lt_or_gt_of_ne hc with hn | hp
  · rcases h with h | h
    · right
      unfold NonDecreasing at h
      rw [List.pairwise_map] at h
      exact h.imp (fun h => (mul_le_mul_right_of_neg hn).1 h)
    · left
      unfold NonIncreasing at h
      rw [List.pairwise_map] at h
      exact h.imp (fun h => (mul_le_mul_right_of_neg hn).1 h)
  · rcases h with h | h
    · left
      unfold NonDecreasing at h
      rw [List.pairwise_map] at h
      exact h.imp (fun h => le_of_mul_le_mul_right h hp)
    · right
      unfold NonIncreasing at h
      rw [List.pairwise_map] at h
      exact h.imp (fun h => le_of_mul_le_mul_right h hp)

theorem scaleData_data (c : K) (s : Interp K) : (scaleData c s).data = scaled c s.data := by
  unfold scaleData
  split <;> rfl

theorem scaleData_good {s : Interp K} (g : Good s) (c : K) : Good (scaleData c s) := by
  unfold scaleData
  by_cases he : s.data.length = s.ddata.length
  · rw [if_pos he]
    have la : (scaled c s.data).length = s.data.length := by simp [scaled]
    have lb : (scaled c s.ddata).length = s.ddata.length := by simp [scaled]
    refine ⟨?_, ?_, ?_, ?_⟩
    · show Asc (scaled c s.data)
      unfold Asc; rw [keys_scaled]; exact g.asc
    · intro _
      show (scaled c s.data).length ≤ (scaled c s.ddata).length
      rw [la, lb]; exact he.le
    · intro h2 _
      show keys (scaled c s.ddata) = keys (scaled c s.data)
      rw [keys_scaled, keys_scaled]
      exact g.keys_eq (by simpa [scaled] using h2) he.symm
    · intro _ hm i m n hi e1 e2
      change i + 1 < (scaled c s.data).length at hi
      change find (pt (scaled c s.data) i).1 (scaled c s.ddata) = some m at e1
      change find (pt (scaled c s.data) (i + 1)).1 (scaled c s.ddata) = some n at e2
      show Safe (pt (scaled c s.data) i) (pt (scaled c s.data) (i + 1)) m n
      rw [la] at hi
      rw [pt_scaled c (by omega)] at e1 ⊢
      rw [pt_scaled c hi] at e2 ⊢
      rw [find_scaled] at e1 e2
      obtain ⟨m', f1⟩ := g.find (by omega) he.symm (i := i) (by omega)
      obtain ⟨n', f2⟩ := g.find (by omega) he.symm (i := i + 1) hi
      simp only [f1, f2, Option.map_some, Option.some.injEq] at e1 e2
      rw [← e1, ← e2]
      by_cases hc : c = 0
      · subst hc
        exact ⟨0, 0, le_rfl, by norm_num, le_rfl, by norm_num, by simp, by simp⟩
      · have hm' : Mono (fVector s) := by
          apply mono_unscale hc
          have : (fVector s).map (· * c) = (scaled c s.data).map (·.2) := by
            simp [fVector, scaled]
          rw [this]
          exact hm
        exact (g.safe he.symm hm' i m' n' hi f1 f2).scaled c
  · rw [if_neg he]
    have la : (scaled c s.data).length = s.data.length := by simp [scaled]
    refine ⟨?_, ?_, ?_, ?_⟩
    · show Asc (scaled c s.data)
      unfold Asc; rw [keys_scaled]; exact g.asc
    · intro h2
      show (scaled c s.data).length ≤ s.ddata.length
      rw [la]
      exact g.more (by simpa [scaled] using h2)
    · intro _ h
      exact absurd (h.trans la).symm he
    · intro h
      exact absurd (h.trans la).symm he

/-! ### Removing points -/

theorem shrinkGo_spec (eps : K) (l : List (K × K)) : ∀ cur, Asc (cur :: l) →
    (shrinkGo eps cur l).Sublist l ∧
    (∀ i p q, (cur :: shrinkGo eps cur l)[i]? = some p → (cur :: shrinkGo eps cur l)[i + 1]? = some q →
      eps ≤ |p.2 - q.2|) ∧
    (∀ p ∈ l, p ∈ shrinkGo eps cur l ∨ ∃ q ∈ cur :: shrinkGo eps cur l, q.1 < p.1 ∧ |q.2 - p.2| < eps) := by
  induction l with
  | nil =>
    intro cur _
    refine ⟨by simp [shrinkGo], ?_, by simp⟩
    intro i p q _ h
    simp [shrinkGo] at h
  | cons n l ih =>
    intro cur ha
    have h1 : cur.1 < n.1 ∧ (∀ a ∈ keys l, cur.1 < a) ∧ Asc (n :: l) := by
      simp only [Asc, keys, List.map_cons, List.pairwise_cons, List.mem_cons, forall_eq_or_imp] at ha ⊢
      exact ⟨ha.1.1, ha.1.2, ha.2⟩
    have hcl : Asc (cur :: l) := by
      have := h1.2.2
      simp only [Asc, keys, List.map_cons, List.pairwise_cons] at this ⊢
      exact ⟨h1.2.1, this.2⟩
    simp only [shrinkGo]
    by_cases he : |cur.2 - n.2| < eps
    · rw [if_pos he]
      obtain ⟨i1, i2, i3⟩ := ih cur hcl
      refine ⟨i1.trans (List.sublist_cons_self _ _), i2, ?_⟩
      intro p hp
      rcases List.mem_cons.1 hp with rfl | hp
      · exact Or.inr ⟨cur, List.mem_cons_self, h1.1, he⟩
      · exact i3 p hp
    · rw [if_neg he]
      obtain ⟨i1, i2, i3⟩ := ih n h1.2.2
      refine ⟨i1.cons_cons n, ?_, ?_⟩
      · intro i p q hp hq
        cases i with
        | zero =>
          simp only [List.getElem?_cons_zero, List.getElem?_cons_succ, Option.some.injEq] at hp hq
          rw [← hp, ← hq]
          exact not_lt.1 he
        | succ i => exact i2 i p q (by simpa using hp) (by simpa using hq)
      · intro p hp
        rcases List.mem_cons.1 hp with rfl | hp
        · exact Or.inl List.mem_cons_self
        · rcases i3 p hp with h | ⟨q, hq, h, h'⟩
          · exact Or.inl (List.mem_cons_of_mem _ h)
          · exact Or.inr ⟨q, List.mem_cons_of_mem _ hq, h, h'⟩

theorem shrinkList_thinned (eps : K) {l : List (K × K)} (ha : Asc l) : Thinned eps l (shrinkList eps l) := by
  cases l with
  | nil => exact ⟨by simp [shrinkList], rfl, by simp [shrinkList], by simp⟩
  | cons p l =>
    obtain ⟨i1, i2, i3⟩ := shrinkGo_spec eps l p ha
    refine ⟨i1.cons_cons p, rfl, i2, ?_⟩
    intro q hq
    rcases List.mem_cons.1 hq with rfl | hq
    · exact Or.inl List.mem_cons_self
    · rcases i3 q hq with h | h
      · exact Or.inl (List.mem_cons_of_mem _ h)
      · exact Or.inr h

theorem Asc.sublist {l m : List (K × K)} (h : Asc l) (hs : m.Sublist l) : Asc m :=
  List.Pairwise.sublist (hs.map _) h

theorem nd_sublist {l m : List (K × K)} (h : NonDecreasing (l.map (·.2))) (hs : m.Sublist l) :
    NonDecreasing (m.map (·.2)) := List.Pairwise.sublist (hs.map _) h

theorem ni_sublist {l m : List (K × K)} (h : NonIncreasing (l.map (·.2))) (hs : m.Sublist l) :
    NonIncreasing (m.map (·.2)) := List.Pairwise.sublist (hs.map _) h

/-- Removing points from the data without touching the derivatives. -/
theorem good_sublist {s : Interp K} (g : Good s) {m : List (K × K)} (hs : m.Sublist s.data) (b1 b2 : Bool) :
    Good { s with strictlyMonotoneCached := b1, monotoneCached := b2, data := m } := by
  have hl := hs.length_le
  have key : 2 ≤ m.length → s.ddata.length = m.length → m = s.data := by
    intro h2 he
    have := g.more (by omega)
    exact hs.eq_of_length (by omega)
  refine ⟨g.asc.sublist hs, fun h2 => hl.trans (g.more (h2.trans hl)), ?_, ?_⟩
  · intro h2 he
    have e := key h2 he
    subst e
    exact g.keys_eq h2 he
  · intro he hm i a b hi
    have e := key (by simp only at hi; omega) he
    subst e
    exact g.safe he hm i a b hi

theorem shrink_ok {sqrt : K → K} (hr : IsRoot sqrt) {s : Interp K} (g : Good s) (eps : K) :
    ∃ s', shrinkFlatAreas sqrt eps s = .ok s' ∧ Good s' ∧ (FlagsOk s → FlagsOk s') ∧
      (s'.data = s.data ∨ 2 ≤ s.data.length ∧ s'.data = shrinkList eps s.data) ∧
      (FlagsOk s → 2 ≤ s.data.length → Mono (fVector s) → ¬ (Increasing (fVector s) ∨ Decreasing (fVector s)) →
        s'.data = shrinkList eps s.data) ∧
      (FlagsOk s → (s.data.length < 2 ∨ ¬ Mono (fVector s) ∨ Increasing (fVector s) ∨ Decreasing (fVector s)) →
        s'.data = s.data) := by
  unfold shrinkFlatAreas
  rcases Nat.lt_or_ge s.data.length 2 with h | h
  · rw [if_pos h]
    exact ⟨s, rfl, g, id, Or.inl rfl, fun _ h' => by omega, fun _ _ => rfl⟩
  · rw [if_neg (by omega)]
    unfold isStrictlyMonotone
    obtain ⟨s1, e1, d1, g1, f1, c1, t1⟩ := refresh_good hr g s.strictlyMonotoneCached
    rw [e1, bind_ok, bind_ok]
    have fv : fVector s1 = fVector s := by simp [fVector, d1]
    have x1 : FlagsOk s → Exact (fVector s) s1.flags := by
      intro hf
      cases hb : s.strictlyMonotoneCached with
      | true => rw [t1 hb]; exact hf.cached h (Or.inl hb)
      | false => rw [← fv]; exact (c1 hb h).exact
    by_cases hs : s1.flags.strictlyMonotone = true
    · rw [if_pos hs]
      refine ⟨s1, rfl, g1, f1, Or.inl d1, ?_, fun _ _ => d1⟩
      intro hf _ _ hn
      exact absurd ((x1 hf).strict.1 hs) hn
    · rw [if_neg hs]
      unfold shrinkMonotone isMonotone
      obtain ⟨s2, e2, d2, g2, f2, c2, t2⟩ := refresh_good hr g1 s1.monotoneCached
      rw [e2, bind_ok, bind_ok]
      have fv2 : fVector s2 = fVector s := by simp [fVector, d2, d1]
      have x2 : FlagsOk s → Exact (fVector s) s2.flags := by
        intro hf
        cases hb : s1.monotoneCached with
        | true => rw [t2 hb]; exact x1 hf
        | false => rw [← fv2]; exact (c2 hb (by rw [d1]; exact h)).exact
      by_cases hm : s2.flags.monotone = true
      · rw [hm]
        simp only [Bool.not_true, Bool.false_eq_true, if_false]
        have hth := shrinkList_thinned eps g2.asc
        refine ⟨_, rfl, good_sublist g2 hth.sublist _ _, ?_, Or.inr ⟨h, by rw [d2, d1]⟩, fun _ _ _ _ => by rw [d2, d1], ?_⟩
        · intro hf
          have hf2 := f2 (f1 hf)
          have hl2 : 2 ≤ s2.data.length := by rw [d2, d1]; exact h
          exact ⟨fun _ hc => by simp at hc, fun _ hu => nd_sublist (hf2.up hl2 hu) hth.sublist,
            fun _ hu => ni_sublist (hf2.down hl2 hu) hth.sublist⟩
        · intro hf hor
          rcases hor with h' | h' | h'
          · omega
          · exact absurd ((x2 hf).mono.1 hm) h'
          · exact absurd ((x1 hf).strict.2 h') hs
      · rw [Bool.not_eq_true] at hm
        rw [hm]
        simp only [Bool.not_false, if_true]
        refine ⟨s2, rfl, g2, fun hf => f2 (f1 hf), Or.inl (by rw [d2, d1]), ?_, fun _ _ => by rw [d2, d1]⟩
        intro hf _ hmo
        rw [(x2 hf).mono.2 hmo] at hm
        cases hm

/-! ### Chopping -/

theorem chop_ok {sqrt : K → K} (hr : IsRoot sqrt) {s : Interp K} (g : Good s) (eps : K) :
    (∃ s', chopFlatEndpoints sqrt eps s = .ok s' ∧ s'.data = s.data ∧ Good s' ∧ (FlagsOk s → FlagsOk s') ∧
      (3 ≤ s.data.length → eps ≤ |(pt s.data 0).2 - (pt s.data 1).2| ∧
        eps ≤ |(pt s.data (s.data.length - 1)).2 - (pt s.data (s.data.length - 2)).2|)) ∨
    (chopFlatEndpoints sqrt eps s = .error .ub ∧ 3 ≤ s.data.length ∧
      (|(pt s.data 0).2 - (pt s.data 1).2| < eps ∨
        |(pt s.data (s.data.length - 1)).2 - (pt s.data (s.data.length - 2)).2| < eps)) := by
  unfold chopFlatEndpoints
  rcases Nat.lt_or_ge s.data.length 3 with h | h
  · rw [if_pos h]
    exact Or.inl ⟨s, rfl, rfl, g, id, fun h' => by omega⟩
  · rw [if_neg (by omega), rd_pt (by omega), bind_ok, rd_pt (by omega), bind_ok]
    by_cases h1 : |(pt s.data 0).2 - (pt s.data 1).2| < eps
    · rw [if_pos h1]
      exact Or.inr ⟨rfl, h, Or.inl h1⟩
    · rw [if_neg h1]
      unfold chopRight
      rw [rd_pt (by omega), bind_ok, rd_pt (by omega), bind_ok]
      by_cases h2 : |(pt s.data (s.data.length - 1)).2 - (pt s.data (s.data.length - 2)).2| < eps
      · rw [if_pos ⟨by omega, h2⟩]
        exact Or.inr ⟨rfl, h, Or.inr h2⟩
      · rw [if_neg (fun h => h2 h.2)]
        obtain ⟨s', e, d, g', f'⟩ := compute_good (s := { s with strictlyMonotoneCached := false, monotoneCached := false }) hr g.asc
        exact Or.inl ⟨s', e, d, g', fun _ => f', fun _ => ⟨not_lt.1 h1, not_lt.1 h2⟩⟩

/-! ### Histories -/

theorem evaluate_state {s : Interp K} (g : Good s) {x : K} {r : K × Interp K} (h : evaluate s x = .ok r) : r.2 = s := by
  rcases Nat.eq_zero_or_pos s.data.length with h0 | h0
  · have e : s.data = [] := List.eq_nil_of_length_eq_zero h0
    unfold evaluate at h
    rw [e] at h
    simp [lowerBound, rd] at h
  · obtain ⟨v, e⟩ := evaluate_total g h0 x
    rw [e] at h
    cases h
    rfl

/-- The call does not scale the data. -/
def Op.unscaled : Op K → Prop
  | .scaleData _ => False
  | _ => True

theorem step_good {sqrt : K → K} (hr : IsRoot sqrt) {s s' : Interp K} (g : Good s) {op : Op K}
    (h : step sqrt s op = .ok s') : Good s' ∧ (op.unscaled → FlagsOk s → FlagsOk s') := by
  cases op with
  | addPair x f =>
    obtain ⟨t, e, _, g', f'⟩ := addPair_good hr g x f
    rw [show step sqrt s (.addPair x f) = addPair sqrt x f s from rfl, e] at h
    cases h
    exact ⟨g', fun _ _ => f'⟩
  | scaleData c =>
    have e : s' = scaleData c s := by
      have : (Except.ok (scaleData c s) : M (Interp K)) = .ok s' := h
      cases this; rfl
    rw [e]
    exact ⟨scaleData_good g c, fun h => h.elim⟩
  | chopFlatEndpoints eps =>
    have h' : chopFlatEndpoints sqrt eps s = .ok s' := h
    rcases chop_ok hr g eps with ⟨t, e, _, g', f', _⟩ | ⟨e, _⟩
    · rw [e] at h'; cases h'; exact ⟨g', fun _ => f'⟩
    · rw [e] at h'; cases h'
  | shrinkFlatAreas eps =>
    have h' : shrinkFlatAreas sqrt eps s = .ok s' := h
    obtain ⟨t, e, g', f', _⟩ := shrink_ok hr g eps
    rw [e] at h'; cases h'; exact ⟨g', fun _ => f'⟩
  | isStrictlyMonotone =>
    obtain ⟨t, e, _, g', f', _⟩ := refresh_good hr g s.strictlyMonotoneCached
    simp only [step, isStrictlyMonotone, e, bind_ok] at h
    cases h
    exact ⟨g', fun _ => f'⟩
  | isMonotone =>
    obtain ⟨t, e, _, g', f', _⟩ := refresh_good hr g s.monotoneCached
    simp only [step, isMonotone, e, bind_ok] at h
    cases h
    exact ⟨g', fun _ => f'⟩
  | evaluate x =>
    simp only [step] at h
    obtain ⟨r, e, h⟩ := bind_eq_ok.1 h
    have := evaluate_state g e
    cases h
    rw [this]
    exact ⟨g, fun _ => id⟩

theorem run_good {sqrt : K → K} (hr : IsRoot sqrt) (ops : List (Op K)) : ∀ {s s' : Interp K}, Good s →
    run sqrt ops s = .ok s' → Good s' ∧ ((∀ op ∈ ops, op.unscaled) → FlagsOk s → FlagsOk s') := by
  induction ops with
  | nil =>
    intro s s' g h
    cases h
    exact ⟨g, fun _ => id⟩
  | cons op ops ih =>
    intro s s' g h
    unfold run at h
    rw [List.foldlM_cons] at h
    obtain ⟨t, e, h⟩ := bind_eq_ok.1 h
    obtain ⟨g1, f1⟩ := step_good hr g e
    obtain ⟨g2, f2⟩ := ih g1 h
    exact ⟨g2, fun hu hf => f2 (fun o ho => hu o (List.mem_cons_of_mem _ ho)) (f1 (hu op List.mem_cons_self) hf)⟩

/-! ### Extreme values and the largest jump -/

theorem foldl_max (l : List (K × K)) : ∀ m : K × K,
    (l.foldl (fun m p => if p.2 > m.2 then p else m) m ∈ m :: l) ∧
    m.2 ≤ (l.foldl (fun m p => if p.2 > m.2 then p else m) m).2 ∧
    ∀ p ∈ l, p.2 ≤ (l.foldl (fun m p => if p.2 > m.2 then p else m) m).2 := by
  induction l with
  | nil => intro m; simp
  | cons q l ih =>
    intro m
    rw [List.foldl_cons]
    obtain ⟨h1, h2, h3⟩ := ih (if q.2 > m.2 then q else m)
    have hq : q.2 ≤ (if q.2 > m.2 then q else m).2 := by
      split
      · exact le_rfl
      · rename_i h; exact not_lt.1 h
    have hm : m.2 ≤ (if q.2 > m.2 then q else m).2 := by
      split
      · rename_i h; exact le_of_lt h
      · exact le_rfl
    refine ⟨?_, hm.trans h2, ?_⟩
    · rcases List.mem_cons.1 h1 with e | e
      · rw [e]; split <;> simp
      · exact List.mem_cons_of_mem _ (List.mem_cons_of_mem _ e)
    · intro p hp
      rcases List.mem_cons.1 hp with rfl | hp
      · exact hq.trans h2
      · exact h3 p hp

theorem foldl_min (l : List (K × K)) : ∀ m : K × K,
    (l.foldl (fun m p => if p.2 < m.2 then p else m) m ∈ m :: l) ∧
    (l.foldl (fun m p => if p.2 < m.2 then p else m) m).2 ≤ m.2 ∧
    ∀ p ∈ l, (l.foldl (fun m p => if p.2 < m.2 then p else m) m).2 ≤ p.2 := by
  induction l with
  | nil => intro m; simp
  | cons q l ih =>
    intro m
    rw [List.foldl_cons]
    obtain ⟨h1, h2, h3⟩ := ih (if q.2 < m.2 then q else m)
    have hq : (if q.2 < m.2 then q else m).2 ≤ q.2 := by
      split
      · exact le_rfl
      · rename_i h; exact not_lt.1 h
    have hm : (if q.2 < m.2 then q else m).2 ≤ m.2 := by
      split
      · rename_i h; exact le_of_lt h
      · exact le_rfl
    refine ⟨?_, h2.trans hm, ?_⟩
    · rcases List.mem_cons.1 h1 with e | e
      · rw [e]; split <;> simp
      · exact List.mem_cons_of_mem _ (List.mem_cons_of_mem _ e)
    · intro p hp
      rcases List.mem_cons.1 hp with rfl | hp
      · exact h2.trans hq
      · exact h3 p hp

theorem mem_pt {l : List (K × K)} {p : K × K} (h : p ∈ l) : ∃ i, i < l.length ∧ pt l i = p := by
  obtain ⟨i, hi⟩ := List.mem_iff_getElem?.1 h
  have hl : i < l.length := by
    rcases Nat.lt_or_ge i l.length with h | h
    · exact h
    · rw [List.getElem?_eq_none h] at hi; cases hi
  exact ⟨i, hl, pt_of_get hi⟩

theorem nd_first {l : List (K × K)} (h : NonDecreasing (l.map (·.2))) {p : K × K} (hp : p ∈ l) :
    (pt l 0).2 ≤ p.2 ∧ p.2 ≤ (pt l (l.length - 1)).2 := by
  obtain ⟨i, hi, rfl⟩ := mem_pt hp
  have hD := dir_of_mono h
  have h1 := hD.le (Nat.zero_le i) hi
  have h2 := hD.le (i := i) (j := l.length - 1) (by omega) (by omega)
  constructor <;> linarith

theorem ni_first {l : List (K × K)} (h : NonIncreasing (l.map (·.2))) {p : K × K} (hp : p ∈ l) :
    p.2 ≤ (pt l 0).2 ∧ (pt l (l.length - 1)).2 ≤ p.2 := by
  obtain ⟨i, hi, rfl⟩ := mem_pt hp
  have hD := dir_of_anti h
  have h1 := hD.le (Nat.zero_le i) hi
  have h2 := hD.le (i := i) (j := l.length - 1) (by omega) (by omega)
  constructor <;> linarith

theorem getMaximumF_ok {s : Interp K} (f : FlagsOk s) (h : 2 ≤ s.data.length) :
    ∃ p ∈ s.data, getMaximumF s = .ok p ∧ ∀ q ∈ s.data, q.2 ≤ p.2 := by
  unfold getMaximumF
  rw [if_neg (by omega)]
  by_cases h1 : s.flags.strictlyIncreasing = true
  · rw [if_pos h1, rd_pt (by omega)]
    exact ⟨_, pt_mem (by omega), rfl, fun q hq => (nd_first (f.up h h1) hq).2⟩
  · rw [if_neg h1]
    by_cases h2 : s.flags.strictlyDecreasing = true
    · rw [if_pos h2, rd_pt (by omega)]
      exact ⟨_, pt_mem (by omega), rfl, fun q hq => (ni_first (f.down h h2) hq).1⟩
    · rw [if_neg h2, rd_pt (by omega), bind_ok]
      obtain ⟨a, _, c⟩ := foldl_max s.data (pt s.data (s.data.length - 1))
      refine ⟨_, ?_, rfl, c⟩
      rcases List.mem_cons.1 a with e | e
      · rw [e]; exact pt_mem (by omega)
      · exact e

theorem getMinimumF_ok {s : Interp K} (f : FlagsOk s) (h : 2 ≤ s.data.length) :
    ∃ p ∈ s.data, getMinimumF s = .ok p ∧ ∀ q ∈ s.data, p.2 ≤ q.2 := by
  unfold getMinimumF
  rw [if_neg (by omega)]
  by_cases h1 : s.flags.strictlyIncreasing = true
  · rw [if_pos h1, rd_pt (by omega)]
    exact ⟨_, pt_mem (by omega), rfl, fun q hq => (nd_first (f.up h h1) hq).1⟩
  · rw [if_neg h1]
    by_cases h2 : s.flags.strictlyDecreasing = true
    · rw [if_pos h2, rd_pt (by omega)]
      exact ⟨_, pt_mem (by omega), rfl, fun q hq => (ni_first (f.down h h2) hq).2⟩
    · rw [if_neg h2, rd_pt (by omega), bind_ok]
      obtain ⟨a, _, c⟩ := foldl_min s.data (pt s.data (s.data.length - 1))
      refine ⟨_, ?_, rfl, c⟩
      rcases List.mem_cons.1 a with e | e
      · rw [e]; exact pt_mem (by omega)
      · exact e

theorem largestJump_ok {l : List (K × K)} (h : 2 ≤ l.length) :
    ∃ r, largestJump l = .ok r ∧ r.1 + 1 < l.length ∧ r.2 = |(pt l (r.1 + 1)).2 - (pt l r.1).2| ∧
      ∀ j, j + 1 < l.length → |(pt l (j + 1)).2 - (pt l j).2| ≤ r.2 := by
  unfold largestJump
  obtain ⟨r, e, h1, h2, h3, h4⟩ := loop_inv (n := l.length - 1) (s := ((0 : Nat), (0 : K)))
    (f := fun i r => do
      let p ← rd l i
      let q ← rd l (i + 1)
      .ok (if |q.2 - p.2| > r.2 then (i, |q.2 - p.2|) else r))
    (fun k r => r.1 + 1 < l.length ∧ 0 ≤ r.2 ∧ (∀ j, j < k → |(pt l (j + 1)).2 - (pt l j).2| ≤ r.2) ∧
      (r = (0, 0) ∨ r.2 = |(pt l (r.1 + 1)).2 - (pt l r.1).2|))
    ⟨by simp only; omega, le_rfl, fun j hj => by omega, Or.inl rfl⟩ (by
      rintro i r hi ⟨h1, h2, h3, h4⟩
      rw [rd_pt (by omega : i < l.length), bind_ok, rd_pt (by omega : i + 1 < l.length), bind_ok]
      refine ⟨_, rfl, ?_⟩
      split
      · rename_i hgt
        refine ⟨by simp only; omega, abs_nonneg _, ?_, Or.inr rfl⟩
        intro j hj
        rcases Nat.lt_or_eq_of_le (Nat.lt_succ_iff.1 hj) with h | h
        · exact (h3 j h).trans (le_of_lt hgt)
        · rw [h]
      · rename_i hgt
        refine ⟨h1, h2, ?_, h4⟩
        intro j hj
        rcases Nat.lt_or_eq_of_le (Nat.lt_succ_iff.1 hj) with h | h
        · exact h3 j h
        · rw [h]; exact not_lt.1 hgt)
  refine ⟨r, e, h1, ?_, fun j hj => h3 j (by omega)⟩
  rcases h4 with rfl | h4
  · have := h3 0 (by omega)
    exact (le_antisymm this (abs_nonneg _)).symm
  · exact h4

end Opm.MonotCubic
