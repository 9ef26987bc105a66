import Mathlib.Algebra.BigOperators.Group.List.Basic
import Mathlib.Algebra.Field.Rat
import Mathlib.Tactic.NormNum
import Verif.Model.SimulatorTimer
/-!
# C27: simulation timer
-/

namespace Opm.SimulatorTimer

variable {K : Type} [Field K]

/-- Specification: the only thing a timer over a fixed schedule of `n` steps remembers is how
many steps have been taken.  `none` = the call must be refused. -/
def specStep (n i : Nat) : Op K → Option Nat
  | .initDeck _ => none
  | .setStep k => if 0 ≤ k ∧ k ≤ n then some k.toNat else none
  | .next => if i < n then some (i + 1) else none
  | .setTotal _ => some i

/-- Specification of a whole history. -/
def specRun (n : Nat) : Nat → List (Op K) → Option Nat
  | i, [] => some i
  | i, o :: os => (specStep n i o).bind fun j => specRun n j os

/-- Latest total time announced: the sum of the schedule unless overridden. -/
def specTotal (t0 : K) : List (Op K) → K
  | [] => t0
  | .setTotal t :: os => specTotal t os
  | _ :: os => specTotal t0 os

theorem accumulate_eq_sum (l : List K) : accumulate l = l.sum := by
  unfold accumulate
  rw [List.sum_eq_foldl]

/-- The timer `s` is in step `i` of the schedule `steps`. -/
structure InStep (steps : List K) (i : Nat) (total : K) (s : Timer K) : Prop where
  steps_eq : s.timesteps = steps
  le : i ≤ steps.length
  step_eq : s.currentStep = i
  time_eq : s.currentTime = (steps.take i).sum
  total_eq : s.totalTime = some total

theorem inStep_next {steps : List K} {i : Nat} {total : K} {s : Timer K}
    (h : InStep steps i total s) (hi : i < steps.length) :
    ∃ s', next s = .ok s' ∧ InStep steps (i + 1) total s' := by
  obtain ⟨h1, h2, h3, h4, h5⟩ := h
  have hd : done s = false := by
    simp [done, h1, h3]; omega
  refine ⟨{ s with currentTime := s.currentTime + steps[i], currentStep := s.currentStep + 1 },
    ?_, ?_⟩
  · simp [next, hd, check, h3, h1, rd_ok hi]
  · refine ⟨h1, hi, by simp [h3], ?_, h5⟩
    simp only [h4]
    rw [List.take_add_one, List.sum_append]
    simp [hi]

theorem inStep_next_done {steps : List K} {total : K} {s : Timer K}
    (h : InStep steps steps.length total s) : next s = .error .assertFail := by
  obtain ⟨h1, h2, h3, h4, h5⟩ := h
  have hd : done s = true := by simp [done, h1, h3]
  simp [next, hd, check]

theorem inStep_set {steps : List K} {i : Nat} {total : K} {s : Timer K}
    (h : InStep steps i total s) {k : Int} (hk : 0 ≤ k ∧ k ≤ steps.length) :
    ∃ s', setCurrentStepNum k s = .ok s' ∧ InStep steps k.toNat total s' := by
  obtain ⟨h1, h2, h3, h4, h5⟩ := h
  have hg : ¬ (s.currentStep < 0 ∨ s.currentStep > (s.timesteps.length : Int)) := by
    rw [h1, h3]; omega
  have hg' : ¬ (k < 0 ∨ k > (s.timesteps.length : Int)) := by
    rw [h1]; omega
  refine ⟨_, by unfold setCurrentStepNum; rw [if_neg hg, if_neg hg'], ?_⟩
  refine ⟨h1, by omega, by simp; omega, by simp [accumulate_eq_sum, h1], h5⟩

/-- **C27 (partial).**  For every schedule and every history of `operator++`, `setTotalTime` and
`setCurrentStepNum` calls with an in-range argument, a timer initialised with that schedule
returns normally from all calls iff no `++` was issued in the `done()` state, and then:
its step number is the specified one, the current time is the sum of the lengths of the steps
already taken, the total time is the schedule's sum (or the last `setTotalTime`), and `done()`
holds exactly in the last state.

Missing for the full property: refusing an out-of-range `setCurrentStepNum` argument
(false, see `C27_setCurrentStepNum_accepts_invalid`) and re-`init` in mid-run
(false, see `C27_reinit_keeps_old_time`). -/
theorem C27_timer_history_partial (steps : List K) (ops : List (Op K))
    (hset : ∀ k, Op.setStep k ∈ ops → 0 ≤ k ∧ k ≤ (steps.length : Int))
    (hinit : ∀ l, Op.initDeck l ∉ ops) :
    match specRun steps.length 0 ops with
    | some i => ∃ s, run (initDeck steps Timer.new) ops = .ok s ∧
        numSteps s = steps.length ∧
        s.currentStep = i ∧ i ≤ steps.length ∧
        getCurrentTime s = (steps.take i).sum ∧
        getTotalTime s = .ok (specTotal steps.sum ops) ∧
        (done s = true ↔ i = steps.length) ∧
        (∀ h : i < steps.length, currentStepLength s = .ok steps[i])
    | none => run (initDeck steps Timer.new) ops = .error .assertFail := by
  have key : ∀ (ops : List (Op K)) (i : Nat) (total : K) (s : Timer K),
      (∀ k, Op.setStep k ∈ ops → 0 ≤ k ∧ k ≤ (steps.length : Int)) →
      (∀ l, Op.initDeck l ∉ ops) → InStep steps i total s →
      match specRun steps.length i ops with
      | some j => ∃ s', run s ops = .ok s' ∧ InStep steps j (specTotal total ops) s'
      | none => run s ops = .error .assertFail := by
    intro ops
    induction ops with
    | nil => intro i total s _ _ h; exact ⟨s, rfl, h⟩
    | cons o os ih =>
      intro i total s hs hi h
      have hs' : ∀ k, Op.setStep k ∈ os → 0 ≤ k ∧ k ≤ (steps.length : Int) :=
        fun k hk => hs k (List.mem_cons_of_mem _ hk)
      have hi' : ∀ l, Op.initDeck l ∉ os := fun l hl => hi l (List.mem_cons_of_mem _ hl)
      cases o with
      | initDeck l => exact absurd List.mem_cons_self (hi l)
      | setStep k =>
        have hk := hs k List.mem_cons_self
        obtain ⟨s', e, h'⟩ := inStep_set h hk
        have := ih k.toNat total s' hs' hi' h'
        simpa [specRun, specStep, hk, run, step, e, specTotal] using this
      | next =>
        by_cases hlt : i < steps.length
        · obtain ⟨s', e, h'⟩ := inStep_next h hlt
          have := ih (i + 1) total s' hs' hi' h'
          simpa [specRun, specStep, hlt, run, step, e, specTotal] using this
        · have hi0 : i = steps.length := by have := h.le; omega
          subst hi0
          simp [specRun, specStep, run, step, inStep_next_done h]
      | setTotal t =>
        have h' : InStep steps i t (setTotalTime t s) := ⟨h.1, h.2, h.3, h.4, rfl⟩
        have := ih i t _ hs' hi' h'
        simpa [specRun, specStep, run, step, specTotal] using this
  have h0 : InStep steps 0 steps.sum (initDeck steps (Timer.new (K := K))) :=
    ⟨rfl, Nat.zero_le _, rfl, by simp [initDeck, Timer.new], by simp [initDeck, accumulate_eq_sum]⟩
  have := key ops 0 steps.sum _ hset hinit h0
  split
  · rename_i i hi
    rw [hi] at this
    obtain ⟨s, e, h⟩ := this
    refine ⟨s, e, by simp [numSteps, h.steps_eq], h.step_eq, h.le, h.time_eq,
      by simp [getTotalTime, h.total_eq], ?_, ?_⟩
    · simp [done, h.steps_eq, h.step_eq]; omega
    · intro hi
      have hd : done s = false := by simp [done, h.steps_eq, h.step_eq]; omega
      simp [currentStepLength, hd, check, h.steps_eq, h.step_eq, rd_ok hi]
  · rename_i hi
    rw [hi] at this
    exact this

/-- Non-vacuity: a history with three steps, a jump back and an overridden total time. -/
example : ∃ s, run (initDeck [1, 2, 4] (Timer.new (K := ℚ)))
    [.next, .next, .setStep 1, .setTotal 9, .next] = .ok s ∧ s.currentStep = 2 ∧ s.currentTime = 3 :=
  ⟨{ timesteps := [1, 2, 4], currentStep := 2, currentTime := 3, totalTime := some 9 },
    by decide +kernel, rfl, rfl⟩

/-- A schedule given by parameters: `n` equal steps, total time `n * stepsize`, and this total is
the sum of the schedule. -/
theorem C27_initParam_total (day d : K) (n : Nat) (s : Timer K) :
    ∃ s', initParam day n d s = .ok s' ∧ numSteps s' = n ∧
      (∀ x ∈ s'.timesteps, x = d * day) ∧ getTotalTime s' = .ok s'.timesteps.sum := by
  refine ⟨_, by unfold initParam; rw [if_neg (by omega)], by simp [numSteps], ?_, ?_⟩
  · intro x hx
    simp at hx
    exact hx.2
  · simp [getTotalTime, List.sum_replicate]

/-- A negative number of steps is refused. -/
theorem C27_initParam_negative (day d : K) (n : Int) (hn : n < 0) (s : Timer K) :
    initParam day n d s = .error .thrown := by simp [initParam, hn]

/-- **Finding.**  `setCurrentStepNum` is documented to refuse invalid step numbers, but its guard
inspects the step number it is about to overwrite: in every consistent state *every* out-of-range
argument passes the guard and the call runs into undefined behaviour instead of throwing. -/
theorem C27_setCurrentStepNum_accepts_invalid (steps : List K) (i : Nat) (total : K) (s : Timer K)
    (h : InStep steps i total s) (k : Int) (hk : k < 0 ∨ k > (steps.length : Int)) :
    setCurrentStepNum k s = .error .ub := by
  obtain ⟨h1, h2, h3, h4, h5⟩ := h
  have hg : ¬ (s.currentStep < 0 ∨ s.currentStep > (s.timesteps.length : Int)) := by
    rw [h1, h3]; omega
  unfold setCurrentStepNum
  rw [if_neg hg, if_pos (by rw [h1]; exact hk)]

example : setCurrentStepNum 7 (initDeck [1, 2] (Timer.new (K := ℚ))) = .error .ub := by
  decide +kernel

/-- **Finding.**  Re-initialising a running timer keeps the old step number and time: the current
time is then not the sum of the new schedule's steps. -/
theorem C27_reinit_keeps_old_time :
    ∃ s : Timer ℚ, run Timer.new [.initDeck [1, 2], .next, .initDeck [5, 7]] = .ok s ∧
      s.currentStep = 1 ∧ s.currentTime ≠ (s.timesteps.take 1).sum :=
  ⟨{ timesteps := [5, 7], currentStep := 1, currentTime := 1, totalTime := some 12 },
    by decide +kernel, rfl, by decide +kernel⟩

end Opm.SimulatorTimer
