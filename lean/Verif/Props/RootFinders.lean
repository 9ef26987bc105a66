import Verif.Model.RootFinders
import Mathlib.Tactic.Linarith
import Mathlib.Tactic.FieldSimp
import Mathlib.Tactic.Ring
import Mathlib.Tactic.ByContra
import Mathlib.Tactic.Positivity
/-!
# C20, C21: root finders

`Between a b x`: `x` lies in the closed interval with end points `a` and `b`, in either order.
-/

namespace Opm.RootFinders
open Opm

def Between (a b x : Rat) : Prop := min a b ≤ x ∧ x ≤ max a b

theorem between_left (a b : Rat) : Between a b a := ⟨min_le_left _ _, le_max_left _ _⟩
theorem between_right (a b : Rat) : Between a b b := ⟨min_le_right _ _, le_max_right _ _⟩

theorem between_convex {a b x y w : Rat} (hx : Between a b x) (hy : Between a b y) (h0 : 0 ≤ w) (h1 : w ≤ 1) :
    Between a b (w * x + (1 - w) * y) := by
  obtain ⟨a1, a2⟩ := hx
  obtain ⟨b1, b2⟩ := hy
  constructor
  · nlinarith
  · nlinarith

theorem epsF_pos {tol : Rat} (ht : 0 ≤ tol) (f0 : Rat) : 0 < epsF tol f0 := by
  unfold epsF macheps
  have : (1 : Rat) ≤ max |f0| 1 := le_max_right _ _
  have : (0 : Rat) < 1 / 2 ^ 52 * max |f0| 1 := by positivity
  linarith

theorem step_ok {a b fa fb : Rat} (h : fa * fb < 0) :
    ∃ w, 0 ≤ w ∧ w ≤ 1 ∧ regulaFalsiStep a b fa fb = .ok (w * b + (1 - w) * a) := by
  have hne : fa - fb ≠ 0 := by
    intro h0
    have : fa = fb := by linarith
    rw [this] at h
    nlinarith [mul_self_nonneg fb]
  refine ⟨fa / (fa - fb), ?_, ?_, ?_⟩
  · rcases lt_or_gt_of_ne (show fa ≠ 0 by rintro rfl; simp at h) with h1 | h1
    · have : 0 < fb := by nlinarith
      rw [div_nonneg_iff]; right; constructor <;> linarith
    · have : fb < 0 := by nlinarith
      rw [div_nonneg_iff]; left; constructor <;> linarith
  · rcases lt_or_gt_of_ne (show fa ≠ 0 by rintro rfl; simp at h) with h1 | h1
    · have : 0 < fb := by nlinarith
      rw [div_le_one_of_neg (by linarith)]; linarith
    · have : fb < 0 := by nlinarith
      rw [div_le_one (by linarith)]; linarith
  · unfold regulaFalsiStep
    rw [check_ok (by simpa using h), bind_ok, fdiv_ok hne]
    congr 1
    field_simp
    ring

/-- The iteration state brackets a sign change of `f` inside `[a,b]`; `f0`, `f1` have the signs of `f`
at the two ends. -/
structure Brackets (f : Rat → Rat) (a b : Rat) (s : St) : Prop where
  in0 : Between a b s.x0
  in1 : Between a b s.x1
  opp : s.f0 * s.f1 < 0
  sg0 : 0 < s.f0 * f s.x0
  sg1 : s.f1 = f s.x1

/-- What a successful call guarantees. -/
structure GoodResult (p : Policy) (f : Rat → Rat) (a b : Rat) (maxIter : Int) (width eF : Rat) (failed : Prop) (r : Res) : Prop where
  /-- The result is in the bracket. -/
  value : Between a b r.value
  /-- `f` is evaluated in the bracket only. -/
  evals : ∀ x ∈ r.evals, Between a b x
  /-- The number of iterations, each evaluating `f` once. -/
  count : ∀ n, r.iterations = some n → (n : Int) ≤ max maxIter 0 + 1
  /-- Why the result was returned: small residual; a sign change of `f` across an interval of less than
  the given width, whose midpoint is returned; or an error condition tolerated by the policy. -/
  why : |f r.value| < eF ∨
    (∃ x0 x1, Between a b x0 ∧ Between a b x1 ∧ f x0 * f x1 < 0 ∧ |x1 - x0| < width ∧ r.value = (x0 + x1) / 2) ∨
    (p ≠ .throwOnError ∧ (failed ∨ ∃ n, r.iterations = some n ∧ maxIter < n))

theorem sign_same {f0 f1 fn : Rat} (h01 : f0 * f1 < 0) (hn : fn ≠ 0) :
    (decide (fn > 0) == decide (f0 > 0)) = true → 0 < f0 * fn ∧ f1 * fn < 0 := by
  intro h
  rw [beq_iff_eq, decide_eq_decide] at h
  rcases lt_or_gt_of_ne hn with h1 | h1
  · have : ¬ f0 > 0 := by rw [← h]; linarith
    have hf0 : f0 < 0 := lt_of_le_of_ne (by linarith) (by rintro rfl; simp at h01)
    constructor <;> nlinarith
  · have : f0 > 0 := h.1 h1
    constructor <;> nlinarith

theorem sign_opp {f0 f1 fn : Rat} (h01 : f0 * f1 < 0) (hn : fn ≠ 0) :
    ¬ (decide (fn > 0) == decide (f0 > 0)) = true → f0 * fn < 0 ∧ 0 < f1 * fn := by
  intro h
  rw [beq_iff_eq, decide_eq_decide] at h
  rcases lt_or_gt_of_ne hn with h1 | h1
  · have hf0 : f0 > 0 := by
      by_contra hc
      exact h ⟨fun h2 => by linarith, fun h2 => absurd h2 hc⟩
    constructor <;> nlinarith
  · have hf0 : ¬ f0 > 0 := fun hc => h ⟨fun _ => hc, fun _ => h1⟩
    have : f0 < 0 := lt_of_le_of_ne (by linarith) (by rintro rfl; simp at h01)
    constructor <;> nlinarith

theorem iterate_ok (p : Policy) (f : Rat → Rat) (a b : Rat) (maxIter : Int) (width eF : Rat) (heF : 0 < eF) (n0 : Nat) (failed : Prop)
    (fuel : Nat) (s : St) (hfuel : maxIter.toNat + 2 ≤ fuel + s.it) (hit : (s.it : Int) ≤ max maxIter 0)
    (hb : Brackets f a b s) (hev : ∀ x ∈ s.evals, Between a b x) (hcnt : s.evals.length = n0 + s.it) :
    (∃ r, iterate p f maxIter width eF fuel s = .ok r ∧ GoodResult p f a b maxIter width eF failed r ∧
      (∃ n, r.iterations = some n ∧ r.evals.length = n0 + n)) ∨
    (p = .throwOnError ∧ iterate p f maxIter width eF fuel s = .error .thrown) := by
  induction fuel generalizing s with
  | zero => omega
  | succ fuel ih =>
    unfold iterate
    by_cases hw : |s.x1 - s.x0| ≥ width
    · rw [if_pos hw]
      obtain ⟨w, w0, w1, e⟩ := step_ok (a := s.x0) (b := s.x1) hb.opp
      rw [e, bind_ok]
      have hx := between_convex hb.in1 hb.in0 w0 w1
      generalize w * s.x1 + (1 - w) * s.x0 = xnew at *
      simp only
      have hev' : ∀ x ∈ s.evals ++ [xnew], Between a b x := by
        intro x hx'
        rcases List.mem_append.1 hx' with h | h
        · exact hev x h
        · rw [List.mem_singleton] at h; subst h; exact hx
      have hcnt' : (s.evals ++ [xnew]).length = n0 + (s.it + 1) := by simp; omega
      by_cases hmax : ((s.it + 1 : Nat) : Int) > maxIter
      · rw [if_pos hmax]
        have hmid : Between a b (1 / 2 * (s.x0 + s.x1)) := by
          have := between_convex hb.in0 hb.in1 (by norm_num : (0 : Rat) ≤ 1 / 2) (by norm_num)
          have e : 1 / 2 * (s.x0 + s.x1) = 1 / 2 * s.x0 + (1 - 1 / 2) * s.x1 := by ring
          rw [e]; exact this
        have hgood : p ≠ .throwOnError → GoodResult p f a b maxIter width eF failed
            { value := 1 / 2 * (s.x0 + s.x1), iterations := some (s.it + 1), evals := s.evals ++ [xnew] } := by
          intro hp
          exact ⟨hmid, hev', by intro n hn; cases hn; push_cast; omega, .inr (.inr ⟨hp, .inr ⟨s.it + 1, rfl, hmax⟩⟩)⟩
        cases p with
        | throwOnError => right; exact ⟨rfl, rfl⟩
        | warnAndContinue => left; exact ⟨_, rfl, hgood (by simp), s.it + 1, rfl, hcnt'⟩
        | continueOnError => left; exact ⟨_, rfl, hgood (by simp), s.it + 1, rfl, hcnt'⟩
      · rw [if_neg hmax]
        by_cases hres : |f xnew| < eF
        · rw [if_pos hres]
          left
          exact ⟨_, rfl, ⟨hx, hev', by intro n hn; cases hn; push_cast; omega, .inl hres⟩, s.it + 1, rfl, hcnt'⟩
        · rw [if_neg hres]
          have hne : f xnew ≠ 0 := by
            intro h0
            rw [h0, abs_zero] at hres
            exact hres heF
          by_cases hs : (decide (f xnew > 0) == decide (s.f0 > 0)) = true
          · rw [if_pos hs]
            obtain ⟨h1, h2⟩ := sign_same hb.opp hne hs
            refine ih _ (by simp only; omega) (by simp only; omega) ⟨hb.in1, hx, h2, ?_, rfl⟩ hev' hcnt'
            simp only
            rw [← hb.sg1]
            have : s.f1 ≠ 0 := by
              intro h0; have := hb.opp; rw [h0] at this; simp at this
            exact mul_self_pos.2 this
          · rw [if_neg hs]
            obtain ⟨h1, h2⟩ := sign_opp hb.opp hne hs
            have hden : s.f1 + f xnew ≠ 0 := by
              intro h0
              have : f xnew = -s.f1 := by linarith
              rw [this] at h2
              nlinarith [mul_self_nonneg s.f1]
            have hgam : 0 < s.f1 / (s.f1 + f xnew) := by
              rcases lt_or_gt_of_ne hne with h3 | h3
              · have : s.f1 < 0 := by nlinarith
                exact div_pos_of_neg_of_neg this (by linarith)
              · have : 0 < s.f1 := by nlinarith
                exact div_pos this (by linarith)
            rw [fdiv_ok hden, bind_ok]
            generalize s.f1 / (s.f1 + f xnew) = gamma at *
            refine ih _ (by simp only; omega) (by simp only; omega) ⟨hb.in0, hx, ?_, ?_, rfl⟩ hev' hcnt'
            · simp only; nlinarith
            · simp only
              have := hb.sg0
              have e : s.f0 * gamma * f s.x0 = gamma * (s.f0 * f s.x0) := by ring
              rw [e]; positivity
    · rw [if_neg hw]
      left
      refine ⟨_, rfl, ⟨?_, hev, by intro n hn; cases hn; omega, .inr (.inl ⟨s.x0, s.x1, hb.in0, hb.in1, ?_, not_le.1 hw, by ring⟩)⟩, s.it, rfl, hcnt⟩
      · have := between_convex hb.in0 hb.in1 (by norm_num : (0 : Rat) ≤ 1 / 2) (by norm_num)
        have e : 1 / 2 * (s.x0 + s.x1) = 1 / 2 * s.x0 + (1 - 1 / 2) * s.x1 := by ring
        simp only
        rw [e]; exact this
      · rw [← hb.sg1]
        have h1 := hb.opp
        have h2 := hb.sg0
        rcases lt_or_gt_of_ne (show s.f0 ≠ 0 by intro h; rw [h] at h1; simp at h1) with h3 | h3
        · have : f s.x0 < 0 := by nlinarith
          have : 0 < s.f1 := by nlinarith
          nlinarith
        · have : 0 < f s.x0 := by nlinarith
          have : s.f1 < 0 := by nlinarith
          nlinarith

theorem opp_of_not_small {eF f0 f1 : Rat} (heF : 0 < eF) (h0 : ¬ |f0| < eF) (h1 : ¬ |f1| < eF) (h : ¬ f0 * f1 > 0) : f0 * f1 < 0 := by
  refine lt_of_le_of_ne (not_lt.1 h) ?_
  intro hz
  rcases mul_eq_zero.1 hz with h2 | h2
  · rw [h2, abs_zero] at h0; exact h0 heF
  · rw [h2, abs_zero] at h1; exact h1 heF

theorem failure_between (p : Policy) (a b f0 f1 v : Rat) (h : p.bracketingFailure a b f0 f1 = .ok v) : p ≠ .throwOnError ∧ Between a b v := by
  unfold Policy.bracketingFailure at h
  cases p with
  | throwOnError => cases h
  | warnAndContinue =>
    refine ⟨by simp, ?_⟩
    simp only at h
    split at h <;> cases h
    · exact between_left a b
    · exact between_right a b
  | continueOnError =>
    refine ⟨by simp, ?_⟩
    simp only at h
    split at h <;> cases h
    · exact between_left a b
    · exact between_right a b

/-- **C20.** For every function, end points, iteration limit and tolerance `≥ 0`, a call either returns a
`GoodResult` — inside the bracket, with `f` evaluated only inside the bracket, at most `max_iter + 1` times
in the loop (plus the two end points), and for one of the stated reasons — or the policy is to throw and
it throws because the end points do not bracket a zero or the iteration limit was reached.  No assertion
fails and no division by zero occurs. -/
theorem regula_falsi_bracket (p : Policy) (f : Rat → Rat) (a b : Rat) (maxIter : Int) (tol : Rat) (ht : 0 ≤ tol) :
    (∃ r, solve p f a b maxIter tol = .ok r ∧
      GoodResult p f a b maxIter (1 / 10 ^ 9 * eps tol a b) (epsF tol (f a)) (0 < f a * f b) r ∧
      (r.evals.length : Int) ≤ 2 + (max maxIter 0 + 1)) ∨
    (p = .throwOnError ∧ solve p f a b maxIter tol = .error .thrown) := by
  have heF := epsF_pos ht (f a)
  unfold solve
  simp only
  by_cases h0 : |f a| < epsF tol (f a)
  · rw [if_pos h0]
    left
    refine ⟨_, rfl, ⟨between_left a b, ?_, (by intro n hn; cases hn), .inl h0⟩, by simp; omega⟩
    intro x hx; simp at hx; subst hx; exact between_left _ b
  · rw [if_neg h0]
    have hev : ∀ x ∈ [a, b], Between a b x := by
      intro x hx
      simp at hx
      rcases hx with rfl | rfl
      · exact between_left _ _
      · exact between_right _ _
    by_cases h1 : |f b| < epsF tol (f a)
    · rw [if_pos h1]
      left
      exact ⟨_, rfl, ⟨between_right a b, hev, (by intro n hn; cases hn), .inl h1⟩, by simp; omega⟩
    · rw [if_neg h1]
      by_cases h2 : f a * f b > 0
      · rw [if_pos h2]
        cases hp : p.bracketingFailure a b (f a) (f b) with
        | error e =>
          right
          unfold Policy.bracketingFailure at hp
          cases p with
          | throwOnError => cases hp; exact ⟨rfl, rfl⟩
          | warnAndContinue => cases hp
          | continueOnError => cases hp
        | ok v =>
          left
          obtain ⟨hp1, hv⟩ := failure_between p a b _ _ v hp
          exact ⟨_, rfl, ⟨hv, hev, (by intro n hn; cases hn), .inr (.inr ⟨hp1, .inl h2⟩)⟩, by simp; omega⟩
      · rw [if_neg h2]
        have hopp := opp_of_not_small heF h0 h1 h2
        rcases iterate_ok p f a b maxIter (1 / 10 ^ 9 * eps tol a b) (epsF tol (f a)) heF 2 (0 < f a * f b) (maxIter.toNat + 2)
          { x0 := a, x1 := b, f0 := f a, f1 := f b, it := 0, evals := [a, b] } (by simp) (by simp)
          ⟨between_left a b, between_right a b, hopp, by
            have : f a ≠ 0 := by intro h; rw [h] at hopp; simp at hopp
            exact mul_self_pos.2 this, rfl⟩ hev rfl with ⟨r, e, hg, n, hn, hl⟩ | h
        · left
          refine ⟨r, e, hg, ?_⟩
          have := hg.count n hn
          omega
        · exact .inr h

/-- **C20, throwing policy.** A successful call with the throwing policy is a real root approximation:
small residual, or midpoint of a tiny interval across which `f` changes sign. -/
theorem regula_falsi_throwing (f : Rat → Rat) (a b : Rat) (maxIter : Int) (tol : Rat) (ht : 0 ≤ tol) (r : Res)
    (h : solve .throwOnError f a b maxIter tol = .ok r) :
    |f r.value| < epsF tol (f a) ∨ ∃ x0 x1, Between a b x0 ∧ Between a b x1 ∧ f x0 * f x1 < 0 ∧
      |x1 - x0| < 1 / 10 ^ 9 * eps tol a b ∧ r.value = (x0 + x1) / 2 := by
  rcases regula_falsi_bracket .throwOnError f a b maxIter tol ht with ⟨r', e, hg, _⟩ | ⟨_, e⟩
  · rw [h] at e
    cases e
    rcases hg.why with h1 | h1 | ⟨h1, _⟩
    · exact .inl h1
    · exact .inr h1
    · exact absurd rfl h1
  · rw [h] at e; cases e

/-- **C20, reporting.** If the end points do not bracket a zero (same strict sign, neither small), the
policy decides: throw, or return the end point with the smaller residual. -/
theorem regula_falsi_not_bracketed (p : Policy) (f : Rat → Rat) (a b : Rat) (maxIter : Int) (tol : Rat)
    (h0 : ¬ |f a| < epsF tol (f a)) (h1 : ¬ |f b| < epsF tol (f a)) (h : 0 < f a * f b) :
    (p = .throwOnError → solve p f a b maxIter tol = .error .thrown) ∧
    (p ≠ .throwOnError → ∃ r, solve p f a b maxIter tol = .ok r ∧ (r.value = a ∨ r.value = b) ∧
      |f r.value| ≤ |f a| ∧ |f r.value| ≤ |f b|) := by
  unfold solve
  simp only
  rw [if_neg h0, if_neg h1, if_pos h]
  constructor
  · rintro rfl; rfl
  · intro hp
    have : p.bracketingFailure a b (f a) (f b) = .ok (if |f a| < |f b| then a else b) := by
      cases p with
      | throwOnError => exact absurd rfl hp
      | warnAndContinue => rfl
      | continueOnError => rfl
    rw [this]
    refine ⟨_, rfl, ?_⟩
    simp only
    split
    · rename_i hlt; exact ⟨.inl rfl, le_refl _, le_of_lt hlt⟩
    · rename_i hlt; exact ⟨.inr rfl, not_lt.1 hlt, le_refl _⟩

/-- **C20 for the variant with an initial guess** inside the bracket. -/
theorem regula_falsi_guess_bracket (p : Policy) (f : Rat → Rat) (g a b : Rat) (hg : Between a b g) (maxIter : Int) (tol : Rat) (ht : 0 ≤ tol) :
    (∃ r, solveGuess p f g a b maxIter tol = .ok r ∧
      GoodResult p f a b maxIter (1 / 10 ^ 9 * eps tol a b) (epsF tol (f g)) (0 < f a * f b) r) ∨
    (p = .throwOnError ∧ solveGuess p f g a b maxIter tol = .error .thrown) := by
  have heF := epsF_pos ht (f g)
  unfold solveGuess
  simp only
  by_cases hI : |f g| < epsF tol (f g)
  · rw [if_pos hI]
    left
    refine ⟨_, rfl, ⟨hg, ?_, (by intro n hn; cases hn), .inl hI⟩⟩
    intro x hx; simp at hx; subst hx; exact hg
  · rw [if_neg hI]
    have e0 : (if a ≠ g then f a else f g) = f a := by
      split
      · rfl
      · rename_i h; rw [not_not] at h; rw [h]
    have e1 : (if b ≠ g then f b else f g) = f b := by
      split
      · rfl
      · rename_i h; rw [not_not] at h; rw [h]
    rw [e0, e1]
    have hev0 : ∀ x ∈ (if a ≠ g then [g, a] else [g]), Between a b x := by
      intro x hx
      split at hx <;> simp at hx
      · rcases hx with rfl | rfl
        · exact hg
        · exact between_left _ _
      · subst hx; exact hg
    have hev1 : ∀ x ∈ (if b ≠ g then (if a ≠ g then [g, a] else [g]) ++ [b] else (if a ≠ g then [g, a] else [g])), Between a b x := by
      intro x hx
      split at hx
      · rcases List.mem_append.1 hx with h | h
        · exact hev0 x h
        · rw [List.mem_singleton] at h; subst h; exact between_right _ _
      · exact hev0 x hx
    generalize (if b ≠ g then (if a ≠ g then [g, a] else [g]) ++ [b] else (if a ≠ g then [g, a] else [g])) = ev1 at *
    generalize (if a ≠ g then [g, a] else [g]) = ev0 at *
    by_cases hA : a ≠ g ∧ |f a| < epsF tol (f g)
    · rw [if_pos hA]
      left
      exact ⟨_, rfl, ⟨between_left a b, hev0, (by intro n hn; cases hn), .inl hA.2⟩⟩
    · rw [if_neg hA]
      have hA' : ¬ |f a| < epsF tol (f g) := by
        by_cases h : a = g
        · rw [h]; exact hI
        · exact fun h2 => hA ⟨h, h2⟩
      by_cases hB : b ≠ g ∧ |f b| < epsF tol (f g)
      · rw [if_pos hB]
        left
        exact ⟨_, rfl, ⟨between_right a b, hev1, (by intro n hn; cases hn), .inl hB.2⟩⟩
      · rw [if_neg hB]
        have hB' : ¬ |f b| < epsF tol (f g) := by
          by_cases h : b = g
          · rw [h]; exact hI
          · exact fun h2 => hB ⟨h, h2⟩
        have nz : ∀ z, ¬ |z| < epsF tol (f g) → z ≠ 0 := by
          rintro z hz rfl
          rw [abs_zero] at hz; exact hz heF
        unfold solveGuessCore
        simp only
        by_cases hs : f a * f g < 0
        · rw [if_pos hs]
          simp only
          rw [if_neg (by linarith)]
          rcases iterate_ok p f a b maxIter (1 / 10 ^ 9 * eps tol a b) (epsF tol (f g)) heF ev1.length (0 < f a * f b) (maxIter.toNat + 2)
            { x0 := a, f0 := f a, x1 := g, f1 := f g, it := 0, evals := ev1 } (by simp) (by simp)
            ⟨between_left a b, hg, hs, by exact mul_self_pos.2 (nz _ hA'), rfl⟩ hev1 (by simp) with ⟨r, e, hgood, _⟩ | h
          · exact .inl ⟨r, e, hgood⟩
          · exact .inr h
        · rw [if_neg hs]
          simp only
          have hpos : 0 < f a * f g := by
            refine lt_of_le_of_ne (not_lt.1 hs) (Ne.symm (mul_ne_zero (nz _ hA') (nz _ hI)))
          by_cases hf : f g * f b > 0
          · rw [if_pos hf]
            have hab : 0 < f a * f b := by
              have h1 : 0 < (f a * f g) * (f g * f b) := mul_pos hpos hf
              have h2 : (f a * f g) * (f g * f b) = (f a * f b) * (f g * f g) := by ring
              rw [h2] at h1
              have h3 : 0 < f g * f g := by exact mul_self_pos.2 (nz _ hI)
              by_contra hc
              nlinarith
            cases hp : p.bracketingFailure a b (f g) (f b) with
            | error e =>
              right
              unfold Policy.bracketingFailure at hp
              cases p with
              | throwOnError => cases hp; exact ⟨rfl, rfl⟩
              | warnAndContinue => cases hp
              | continueOnError => cases hp
            | ok v =>
              left
              obtain ⟨hp1, hv⟩ := failure_between p a b _ _ v hp
              exact ⟨_, rfl, ⟨hv, hev1, (by intro n hn; cases hn), .inr (.inr ⟨hp1, .inl hab⟩)⟩⟩
          · rw [if_neg hf]
            have hopp := opp_of_not_small heF hI hB' hf
            rcases iterate_ok p f a b maxIter (1 / 10 ^ 9 * eps tol a b) (epsF tol (f g)) heF ev1.length (0 < f a * f b) (maxIter.toNat + 2)
              { x0 := g, f0 := f g, x1 := b, f1 := f b, it := 0, evals := ev1 } (by simp) (by simp)
              ⟨hg, between_right a b, hopp, by exact mul_self_pos.2 (nz _ hI), rfl⟩ hev1 (by simp) with ⟨r, e, hgood, _⟩ | h
            · exact .inl ⟨r, e, hgood⟩
            · exact .inr h

/-- Finding: in the variant with an initial guess the tolerant policies are given the residual of the
guess in place of that of `a`, so they may return the end point with the *larger* residual. -/
theorem guess_returns_worse_end :
    ∃ (f : Rat → Rat) (r : Res), solveGuess .continueOnError f (1 / 2) 0 1 10 0 = .ok r ∧ r.value = 0 ∧ |f 1| < |f 0| :=
  ⟨fun x => if x = 0 then 100 else if x = 1 then 2 else 1, ⟨0, none, [1 / 2, 0, 1]⟩, by decide +kernel, rfl, by decide +kernel⟩

/-- A convergent run: `f(x) = x - 1/3` on `[0, 1]`, found in one step, and `x^2 - 2` on `[1, 2]`. -/
example : solve .throwOnError (fun x => x - 1 / 3) 0 1 10 0 = .ok { value := 1 / 3, iterations := some 1, evals := [0, 1, 1 / 3] } := by
  decide +kernel

example : ∃ r, solve .throwOnError (fun x => x * x - 2) 1 2 20 (1 / 10 ^ 6) = .ok r ∧ r.iterations = some 5 := by
  have : (match solve .throwOnError (fun x => x * x - 2) 1 2 20 (1 / 10 ^ 6) with
    | .ok r => decide (r.iterations = some 5)
    | .error _ => false) = true := by decide +kernel
  split at this
  · rename_i r h; exact ⟨r, h, by simpa using this⟩
  · cases this

/-! ### C21 -/

theorem bracketLoop_ok (f : Rat → Rat) (x0 f0 dx : Rat) (rem i : Nat) (cur : Rat) (hcur : cur = dx * (-2) ^ i)
    (hprev : ∀ j, j < i → 0 < f0 * f (x0 + dx * (-2) ^ j)) :
    ∃ k, (bracketLoop f x0 f0 rem i cur) = (k, dx * (-2) ^ k) ∧ k ≤ i + rem ∧ (∀ j, j < k → 0 < f0 * f (x0 + dx * (-2) ^ j)) ∧
      (k < i + rem → f0 * f (x0 + dx * (-2) ^ k) ≤ 0) := by
  induction rem generalizing i cur with
  | zero => exact ⟨i, by rw [hcur]; rfl, by omega, hprev, by intro h; omega⟩
  | succ rem ih =>
    unfold bracketLoop
    by_cases h : f0 * f (x0 + cur) ≤ 0
    · rw [if_pos h]
      exact ⟨i, by rw [hcur], by omega, hprev, by intro _; rw [← hcur]; exact h⟩
    · rw [if_neg h]
      obtain ⟨k, h1, h2, h3, h4⟩ := ih (i + 1) (-2 * cur) (by rw [hcur, pow_succ]; ring) (by
        intro j hj
        rcases Nat.lt_or_ge j i with h5 | h5
        · exact hprev j h5
        · obtain rfl : j = i := by omega
          rw [← hcur]; exact not_le.1 h)
      exact ⟨k, h1, by omega, h3, fun h5 => h4 (by omega)⟩

/-- **C21.** `bracketZero` either throws, and then all 100 trial points `x0 + dx·(-2)^j` have the sign of
`f(x0)`; or it returns an interval `[a, b]`, `a ≤ b`, across which `f` changes sign (or vanishes). -/
theorem bracketZero_sign_change (f : Rat → Rat) (x0 dx : Rat) :
    (∃ a b, bracketZero f x0 dx = .ok (a, b) ∧ a ≤ b ∧ f a * f b ≤ 0) ∨
    (bracketZero f x0 dx = .error .thrown ∧ ∀ j, j < 100 → 0 < f x0 * f (x0 + dx * (-2) ^ j)) := by
  obtain ⟨k, h1, h2, h3, h4⟩ := bracketLoop_ok f x0 (f x0) dx 100 0 dx (by simp) (by intro j hj; omega)
  unfold bracketZero
  simp only
  rw [h1]
  simp only
  by_cases hk : k = 100
  · rw [if_pos hk]
    right
    subst hk
    exact ⟨rfl, h3⟩
  · rw [if_neg hk]
    left
    have hnew := h4 (by omega)
    -- the other end
    have hother : f (if k < 2 then x0 else x0 + 1 / 4 * (dx * (-2) ^ k)) * f (x0 + dx * (-2) ^ k) ≤ 0 := by
      by_cases hk2 : k < 2
      · rw [if_pos hk2]; exact hnew
      · rw [if_neg hk2]
        have e : 1 / 4 * (dx * (-2) ^ k) = dx * (-2) ^ (k - 2) := by
          obtain ⟨m, rfl⟩ : ∃ m, k = m + 2 := ⟨k - 2, by omega⟩
          rw [Nat.add_sub_cancel, pow_add]; ring
        rw [e]
        have hprev := h3 (k - 2) (by omega)
        generalize f (x0 + dx * (-2) ^ (k - 2)) = u at *
        generalize f (x0 + dx * (-2) ^ k) = v at *
        generalize f x0 = w at *
        by_contra hc
        have h5 : 0 < u * v := not_le.1 hc
        have h6 : 0 < (w * u) * (u * v) := mul_pos hprev h5
        have h7 : (w * u) * (u * v) = (w * v) * (u * u) := by ring
        have h8 : 0 ≤ u * u := mul_self_nonneg u
        nlinarith
    by_cases hneg : dx * (-2) ^ k < 0
    · rw [if_pos hneg]
      refine ⟨_, _, rfl, ?_, ?_⟩
      · split <;> linarith
      · rw [mul_comm]; exact hother
    · rw [if_neg hneg]
      refine ⟨_, _, rfl, ?_, hother⟩
      split <;> linarith

/-- A zero found after several doublings. -/
example : bracketZero (fun x => x - 5) 0 1 = .ok (4, 16) := by decide +kernel

end Opm.RootFinders
