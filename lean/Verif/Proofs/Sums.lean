import Verif.Core.RowLoop
import Mathlib.Algebra.BigOperators.Intervals
import Mathlib.Algebra.Field.Rat
import Mathlib.Algebra.Order.Ring.Rat
/-!
# Loops that accumulate

If every pass of a loop changes the quantities `V s r` by known amounts, the loop changes them by the sums.
-/

namespace Opm

variable {σ τ ρ : Type _}

theorem loop_sum {n : Nat} {f : Nat → σ → M σ} {s : σ} (Ok : σ → Prop) (V : σ → ρ → Rat) (g : Nat → ρ → Rat) (h0 : Ok s)
    (hs : ∀ i t, i < n → Ok t → ∃ t', f i t = .ok t' ∧ Ok t' ∧ ∀ r, V t' r = V t r + g i r) :
    ∃ t, loop n f s = .ok t ∧ Ok t ∧ ∀ r, V t r = V s r + ∑ i ∈ Finset.range n, g i r := by
  obtain ⟨t, ht, h1, h2⟩ := loop_inv (n := n) (s := s) (f := f) (fun k t => Ok t ∧ ∀ r, V t r = V s r + ∑ i ∈ Finset.range k, g i r)
    ⟨h0, by simp⟩
    (by
      rintro i t hi ⟨h1, h2⟩
      obtain ⟨t', e, h3, h4⟩ := hs i t hi h1
      refine ⟨t', e, h3, fun r => ?_⟩
      rw [h4, h2, Finset.sum_range_succ, add_assoc])
  exact ⟨t, ht, h1, h2⟩

theorem forRange_sum {a b : Nat} {f : Nat → σ → M σ} {s : σ} (hab : a ≤ b) (Ok : σ → Prop) (V : σ → ρ → Rat) (g : Nat → ρ → Rat) (h0 : Ok s)
    (hs : ∀ i t, a ≤ i → i < b → Ok t → ∃ t', f i t = .ok t' ∧ Ok t' ∧ ∀ r, V t' r = V t r + g i r) :
    ∃ t, forRange a b f s = .ok t ∧ Ok t ∧ ∀ r, V t r = V s r + ∑ i ∈ Finset.Ico a b, g i r := by
  obtain ⟨t, ht, h1, h2⟩ := forRange_inv (f := f) (s := s) hab (fun k t => a ≤ k ∧ Ok t ∧ ∀ r, V t r = V s r + ∑ i ∈ Finset.Ico a k, g i r)
    ⟨le_refl _, h0, by simp⟩
    (by
      rintro i t hi hi' ⟨_, h1, h2⟩
      obtain ⟨t', e, h3, h4⟩ := hs i t hi hi' h1
      refine ⟨t', e, by omega, h3, fun r => ?_⟩
      rw [h4, h2, Finset.sum_Ico_succ_top hi, add_assoc])
  exact ⟨t, ht, h2⟩

theorem rowLoopPre_sum {n : Nat} {pos : List Nat} (hp : RowPos n pos) {pre : Nat → M τ} {f : Nat → τ → Nat → σ → M σ} {s : σ} (T : Nat → τ)
    (hpre : ∀ c, c < n → pre c = .ok (T c)) (Ok : σ → Prop) (V : σ → ρ → Rat) (g : Nat → Nat → ρ → Rat) (h0 : Ok s)
    (hs : ∀ c i t, c < n → pos.getD c 0 ≤ i → i < pos.getD (c + 1) 0 → Ok t →
      ∃ t', f c (T c) i t = .ok t' ∧ Ok t' ∧ ∀ r, V t' r = V t r + g c i r) :
    ∃ t, rowLoopPre n pos pre f s = .ok t ∧ Ok t ∧
      ∀ r, V t r = V s r + ∑ c ∈ Finset.range n, ∑ i ∈ Finset.Ico (pos.getD c 0) (pos.getD (c + 1) 0), g c i r := by
  obtain ⟨t, ht, h1, _, h2⟩ := rowLoopPre_inv hp (f := f) (s := s) T hpre
    (fun c i t => Ok t ∧ pos.getD c 0 ≤ i ∧ ∀ r, V t r = V s r + ∑ c ∈ Finset.range c, ∑ i ∈ Finset.Ico (pos.getD c 0) (pos.getD (c + 1) 0), g c i r +
      ∑ i ∈ Finset.Ico (pos.getD c 0) i, g c i r) ⟨h0, by rw [hp.get_zero], by simp⟩
    (by
      rintro c i t hc hi hi' ⟨h1, h2, h3⟩
      obtain ⟨t', e, h4, h5⟩ := hs c i t hc hi hi' h1
      refine ⟨t', e, h4, by omega, fun r => ?_⟩
      rw [h5, h3, Finset.sum_Ico_succ_top hi, add_assoc])
    (by
      rintro c t hc ⟨h1, _, h3⟩
      refine ⟨h1, le_refl _, fun r => ?_⟩
      rw [h3, Finset.sum_range_succ]
      simp [add_assoc])
  exact ⟨t, ht, h1, fun r => by rw [h2]; simp⟩

theorem rowLoop_sum {n : Nat} {pos : List Nat} (hp : RowPos n pos) {f : Nat → Nat → σ → M σ} {s : σ} (Ok : σ → Prop) (V : σ → ρ → Rat)
    (g : Nat → Nat → ρ → Rat) (h0 : Ok s)
    (hs : ∀ c i t, c < n → pos.getD c 0 ≤ i → i < pos.getD (c + 1) 0 → Ok t → ∃ t', f c i t = .ok t' ∧ Ok t' ∧ ∀ r, V t' r = V t r + g c i r) :
    ∃ t, rowLoop n pos f s = .ok t ∧ Ok t ∧
      ∀ r, V t r = V s r + ∑ c ∈ Finset.range n, ∑ i ∈ Finset.Ico (pos.getD c 0) (pos.getD (c + 1) 0), g c i r :=
  rowLoopPre_sum hp (fun _ => ()) (fun _ _ => rfl) Ok V g h0 hs

end Opm
