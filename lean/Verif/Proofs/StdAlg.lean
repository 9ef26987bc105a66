import Verif.Model.StdAlg
import Mathlib.Tactic.ByContra
import Mathlib.Tactic.Tauto
/-! # Proofs about the standard library algorithms -/

namespace Opm.StdAlg
open Opm

variable {α : Type _}

theorem lowerBoundGo_ok (p : α → Bool) (l : List α)
    (hp : ∀ (i k : Nat) x y, i ≤ k → l[i]? = some x → l[k]? = some y → p y = true → p x = true)
    (fuel first len : Nat) (hf : len < fuel) (hl : first + len ≤ l.length)
    (hlo : ∀ (i : Nat) x, i < first → l[i]? = some x → p x = true)
    (hhi : ∀ (i : Nat) x, first + len ≤ i → l[i]? = some x → p x = false) :
    ∃ r, lowerBoundGo p l fuel first len = .ok r ∧ r ≤ l.length ∧
      (∀ (i : Nat) x, i < r → l[i]? = some x → p x = true) ∧
      (∀ (i : Nat) x, r ≤ i → l[i]? = some x → p x = false) := by
  induction fuel generalizing first len with
  | zero => omega
  | succ fuel ih =>
    unfold lowerBoundGo
    by_cases hlen : len > 0
    · rw [if_pos hlen]
      simp only
      have hm : first + len / 2 < l.length := by omega
      have hg := List.getElem?_eq_getElem hm
      rw [rd_of_getElem? hg, bind_ok]
      by_cases hx : p l[first + len / 2] = true
      · rw [if_pos hx]
        refine ih _ _ (by omega) (by omega) (fun i x hi h => ?_) (fun i x hi h => hhi i x (by omega) h)
        exact hp i (first + len / 2) x _ (by omega) h hg hx
      · rw [if_neg hx]
        refine ih _ _ (by omega) (by omega) hlo (fun i x hi h => ?_)
        by_contra hc
        exact hx (hp (first + len / 2) i _ x hi hg h (by simpa using hc))
    · rw [if_neg hlen]
      refine ⟨first, rfl, by omega, hlo, fun i x hi h => hhi i x (by omega) h⟩

/-- `std::lower_bound` on a range partitioned by `p` returns the partition point. -/
theorem lowerBound_ok (p : α → Bool) (l : List α)
    (hp : ∀ (i k : Nat) x y, i ≤ k → l[i]? = some x → l[k]? = some y → p y = true → p x = true) :
    ∃ r, lowerBound p l = .ok r ∧ r ≤ l.length ∧
      (∀ (i : Nat) x, i < r → l[i]? = some x → p x = true) ∧
      (∀ (i : Nat) x, r ≤ i → l[i]? = some x → p x = false) := by
  refine lowerBoundGo_ok p l hp _ _ _ (by omega) (by omega) (fun i x hi => by omega) (fun i x hi h => ?_)
  rw [List.getElem?_eq_none (by omega)] at h
  cases h

end Opm.StdAlg
