import Verif.Spec.MiscUtil
import Verif.Proofs.Sums
import Verif.Proofs.GridSums
import Verif.Proofs.IfsFlux
import Mathlib.Algebra.BigOperators.Ring.Finset
import Mathlib.Algebra.BigOperators.Field
import Mathlib.Algebra.Order.BigOperators.Group.Finset
import Mathlib.Tactic.Ring
import Mathlib.Tactic.Linarith
import Mathlib.Tactic.FieldSimp
/-!
# Lemmas for the utilities
-/

namespace Opm.MiscUtil
open Opm Opm.IfsTpfa

theorem rdD {l : List Rat} {i : Nat} (h : i < l.length) : rd l i = .ok (l.getD i 0) := rd_of_getElem? (getElem?_getD h)

theorem length_vresize (l : List Rat) (n : Nat) : (vresize l n).length = n := by
  unfold vresize
  simp
  omega

theorem fillZero_ok {n : Nat} {a : List Rat} (h : n ≤ a.length) :
    ∃ t, fillZero n a = .ok t ∧ t.length = a.length ∧ (∀ i, i < n → t.getD i 0 = 0) ∧ ∀ i, n ≤ i → t.getD i 0 = a.getD i 0 :=
  loop_write (fun _ => 0) h (fun _ _ _ _ => rfl)

theorem idx_lt {np c p n : Nat} (hc : c < n) (hp : p < np) : np * c + p < np * n := by
  have := Nat.mul_le_mul_left np (Nat.succ_le_of_lt hc)
  rw [Nat.mul_succ] at this
  omega

theorem idx_inj {np c p c' p' : Nat} (hp : p < np) (hp' : p' < np) (h : np * c + p = np * c' + p') : c = c' ∧ p = p' := by
  have h1 : (np * c + p) / np = c := by rw [Nat.mul_add_div (by omega), Nat.div_eq_of_lt hp]; omega
  have h2 : (np * c' + p') / np = c' := by rw [Nat.mul_add_div (by omega), Nat.div_eq_of_lt hp']; omega
  have h3 : c = c' := by rw [← h1, h, h2]
  subst h3
  exact ⟨rfl, by omega⟩

/-- A loop of `a[k i] += v i`. -/
theorem loop_addAt {n : Nat} {f : Nat → List Rat → M (List Rat)} {s : List Rat} (k : Nat → Nat) (v : Nat → Rat)
    (hf : ∀ i t, i < n → t.length = s.length → f i t = addAt t (k i) (v i)) (hk : ∀ i, i < n → k i < s.length) :
    ∃ t, loop n f s = .ok t ∧ t.length = s.length ∧ ∀ r, t.getD r 0 = s.getD r 0 + ∑ i ∈ Finset.range n, if r = k i then v i else 0 :=
  loop_sum (Ok := fun t : List Rat => t.length = s.length) (V := fun t r => t.getD r 0) (g := fun i r => if r = k i then v i else 0) rfl (by
    intro i t hi ht
    rw [hf i t hi ht, addAt_ok (by rw [ht]; exact hk i hi)]
    exact ⟨_, rfl, by simpa using ht, fun r => getD_addAt (by rw [ht]; exact hk i hi) _ r⟩)

theorem loop_rat {n : Nat} {f : Nat → Rat → M Rat} {s : Rat} (v : Nat → Rat) (hf : ∀ i t, i < n → f i t = .ok (t + v i)) :
    loop n f s = .ok (s + ∑ i ∈ Finset.range n, v i) := by
  induction n with
  | zero => simp
  | succ n ih => rw [loop_succ, ih (fun i t hi => hf i t (by omega)), bind_ok, hf n _ (by omega), Finset.sum_range_succ, add_assoc]

theorem numPhases_ok {s pv : List Rat} {np : Nat} (h0 : pv ≠ []) (hs : s.length = np * pv.length) : numPhases s pv = .ok np := by
  have hl : 0 < pv.length := List.length_pos_iff.2 h0
  have : s.length / pv.length = np := by rw [hs]; exact Nat.mul_div_cancel _ hl
  unfold numPhases
  rw [if_neg (by omega), this, if_neg (by rw [hs, Nat.mul_comm]; simp)]

/-- Entry `p` of a sum over phases. -/
theorem sum_phase {np p : Nat} (hp : p < np) (v : Nat → Rat) : (∑ i ∈ Finset.range np, if p = i then v i else 0) = v p := by
  rw [Finset.sum_eq_single p]
  · simp
  · intro i _ hi; rw [if_neg (Ne.symm hi)]
  · intro h; exact absurd (Finset.mem_range.2 hp) h

theorem sum_phase_out {np p : Nat} (hp : np ≤ p) (v : Nat → Rat) : (∑ i ∈ Finset.range np, if p = i then v i else 0) = 0 := by
  refine Finset.sum_eq_zero fun i hi => if_neg ?_
  have := Finset.mem_range.1 hi
  omega

/-- The accumulation loop over one cell. -/
theorem satLoop_ok {pv s a : List Rat} {np c : Nat} (hs : s.length = np * pv.length) (ha : np ≤ a.length) (hc : c < pv.length) :
    ∃ t, loop np (fun p a => do
      let v ← rd pv c
      let x ← rd s (np * c + p)
      addAt a p (v * x)) a = .ok t ∧ t.length = a.length ∧
      ∀ r, t.getD r 0 = a.getD r 0 + ∑ p ∈ Finset.range np, if r = p then pv.getD c 0 * s.getD (np * c + p) 0 else 0 :=
  loop_addAt (fun p => p) (fun p => pv.getD c 0 * s.getD (np * c + p) 0) (by
    intro p t hp ht
    rw [rdD hc, bind_ok, rdD (by rw [hs]; exact idx_lt hc hp), bind_ok]) (fun p hp => by omega)

/-- Row positions from a check. -/
theorem rowPos_of {n : Nat} {pos : List Nat} (h1 : n < pos.length) (h2 : pos[0]? = some 0) (h3 : ∀ c, c < n → pos.getD c 0 ≤ pos.getD (c + 1) 0) : RowPos n pos :=
  ⟨h1, h2, fun c a b hc ha hb => by rw [← getD_of_getElem? (d := 0) ha, ← getD_of_getElem? (d := 0) hb]; exact h3 c hc⟩

end Opm.MiscUtil
