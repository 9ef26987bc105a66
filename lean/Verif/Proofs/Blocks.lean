import Verif.Core.RowLoop
import Verif.Proofs.UniqueList
/-!
# Loops which write single elements or blocks of an array
-/

namespace Opm
open UniquePoints

/-- A loop which writes one element in each pass, different ones in different passes; the value may depend on the element itself. -/
theorem loop_writes {n : Nat} {f : Nat → List Rat → M (List Rat)} {s : List Rat} (idx : Nat → Nat) (v : Nat → Rat) (hi : ∀ i, i < n → idx i < s.length)
    (hinj : ∀ i j, i < n → j < n → idx i = idx j → i = j)
    (hf : ∀ i t, i < n → t.length = s.length → t.getD (idx i) 0 = s.getD (idx i) 0 → f i t = wr t (idx i) (v i)) :
    ∃ t, loop n f s = .ok t ∧ t.length = s.length ∧ (∀ i, i < n → t.getD (idx i) 0 = v i) ∧ ∀ k, (∀ i, i < n → idx i ≠ k) → t.getD k 0 = s.getD k 0 := by
  obtain ⟨t, e, h1, h2, h3⟩ := loop_inv (n := n) (f := f) (s := s)
    (P := fun m (t : List Rat) => t.length = s.length ∧ (∀ i, i < m → i < n → t.getD (idx i) 0 = v i) ∧ ∀ k, (∀ i, i < m → i < n → idx i ≠ k) → t.getD k 0 = s.getD k 0) ⟨rfl, by simp, by simp⟩ (by
    rintro i t hin ⟨h1, h2, h3⟩
    rw [hf i t hin h1 (h3 _ (fun j hj hjn e => by have := hinj j i hjn hin e; omega)), wr_ok (by rw [h1]; exact hi i hin)]
    refine ⟨_, rfl, by simpa using h1, fun j hj hjn => ?_, fun k hk => ?_⟩
    · rw [getD_set' (by rw [h1]; exact hi i hin)]
      by_cases e : idx j = idx i
      · rw [if_pos e, hinj j i hjn hin e]
      · rw [if_neg e]
        exact h2 j (by rcases Nat.lt_succ_iff_lt_or_eq.1 hj with q | q; exact q; rw [q] at e; exact absurd rfl e) hjn
    · rw [getD_set' (by rw [h1]; exact hi i hin), if_neg (fun e => hk i (by omega) hin e.symm)]
      exact h3 k (fun j hj hjn => hk j (by omega) hjn))
  exact ⟨t, e, h1, fun i hi => h2 i hi hi, fun k hk => h3 k (fun i _ hin => hk i hin)⟩

/-- A loop which writes one block in each pass. -/
theorem loop_blocks {n : Nat} {f : Nat → List Rat → M (List Rat)} {s : List Rat} (base K : Nat) (v : Nat → Nat → Rat)
    (hf : ∀ i t, i < n → t.length = s.length → (∀ j, j < K → t.getD (base + (i * K + j)) 0 = s.getD (base + (i * K + j)) 0) →
      ∃ t', f i t = .ok t' ∧ t'.length = s.length ∧ (∀ j, j < K → t'.getD (base + (i * K + j)) 0 = v i j) ∧ ∀ k, (∀ j, j < K → base + (i * K + j) ≠ k) → t'.getD k 0 = t.getD k 0) :
    ∃ t, loop n f s = .ok t ∧ t.length = s.length ∧ (∀ i j, i < n → j < K → t.getD (base + (i * K + j)) 0 = v i j) ∧
      ∀ k, (∀ i j, i < n → j < K → base + (i * K + j) ≠ k) → t.getD k 0 = s.getD k 0 := by
  have dis : ∀ i i' j j', j < K → j' < K → base + (i * K + j) = base + (i' * K + j') → i = i' := by
    intro i i' j j' hj hj' e
    have e' : i * K + j = i' * K + j' := by omega
    have : (i * K + j) / K = (i' * K + j') / K := by rw [e']
    rw [Nat.mul_comm i, Nat.mul_comm i', Nat.mul_add_div (by omega), Nat.mul_add_div (by omega), Nat.div_eq_of_lt hj, Nat.div_eq_of_lt hj'] at this
    omega
  obtain ⟨t, e, h1, h2, h3⟩ := loop_inv (n := n) (f := f) (s := s)
    (P := fun m (t : List Rat) => t.length = s.length ∧ (∀ i j, i < m → j < K → t.getD (base + (i * K + j)) 0 = v i j) ∧
      ∀ k, (∀ i j, i < m → j < K → base + (i * K + j) ≠ k) → t.getD k 0 = s.getD k 0) ⟨rfl, by simp, by simp⟩ (by
    rintro i t hin ⟨h1, h2, h3⟩
    obtain ⟨t', e', l', a', b'⟩ := hf i t hin h1 (fun j hj => h3 _ (fun i' j' hi' hj' q => by have := dis i' i j' j hj' hj q; omega))
    refine ⟨t', e', l', fun i' j' hi' hj' => ?_, fun k hk => ?_⟩
    · rcases Nat.lt_succ_iff_lt_or_eq.1 hi' with q | q
      · rw [b' _ (fun j hj e => by have := dis i i' j j' hj hj' e; omega)]
        exact h2 i' j' q hj'
      · subst q
        exact a' j' hj'
    · rw [b' k (fun j hj => hk i j (by omega) hj)]
      exact h3 k (fun i' j' hi' hj' => hk i' j' (by omega) hj'))
  exact ⟨t, e, h1, h2, h3⟩

/-- If a loop succeeds, so does each of its passes, from some state which satisfies the invariant. -/
theorem loop_passes {σ : Type} {n : Nat} {f : Nat → σ → M σ} {s t : σ} (h : loop n f s = .ok t) : ∀ i, i < n → ∃ a b, f i a = .ok b := by
  induction n generalizing t with
  | zero => intro i hi; omega
  | succ n ih =>
    intro i hi
    rw [loop_succ, bind_eq_ok] at h
    obtain ⟨u, h1, h2⟩ := h
    rcases Nat.lt_succ_iff_lt_or_eq.1 hi with q | q
    · exact ih h1 i q
    · exact ⟨u, t, by rw [q]; exact h2⟩

end Opm
