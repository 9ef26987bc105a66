import Verif.Proofs.HashSet
import Mathlib.Data.Rat.Floor
import Mathlib.Tactic.Positivity
import Mathlib.Tactic.Linarith
/-!
# C11: the integer hash set
-/

namespace Opm.HashSet
open Opm

/-- **C11.**  For every hash function with values inside the table, every requested capacity and every
sequence `ks` of non-negative keys, inserting the keys one after the other into a new set succeeds
(no assertion fails, no access outside the table, every call returns its key); afterwards the slots
that are not free (`-1`) hold exactly the inserted keys, each one once, `hash_set_count_elms` returns their
number, and the table size is a power of two. -/
theorem hash_set_is_set (h : Int → Nat → Nat) (hh : ∀ k : Int, 0 ≤ k → ∀ m, 0 < m → h k m < m) (cap : Nat)
    (hcap : cap ≤ 2 ^ 63) (ks : List Int) (hk : ∀ k ∈ ks, 0 ≤ k) :
    ∃ t, insertAll h ks (allocate cap) = .ok (ks, t) ∧ t.s.length = t.m ∧ (∃ p, t.m = 2 ^ p) ∧ cap ≤ t.m ∧
      (t.s.filter (· ≠ -1)).Perm ks.dedup ∧ countElms t = .ok ks.dedup.length := by
  obtain ⟨p0, e0, hc0, _⟩ := hashSetSize_ok hcap
  obtain ⟨p, s, e, hp, hI, hm⟩ := insertAll_ok hh hk (inv_empty h p0)
  have hperm : (keys s).Perm ks.dedup := by
    rw [List.perm_ext_iff_of_nodup hI.keys_nodup (List.nodup_dedup ks)]
    intro x
    rw [List.mem_dedup]
    unfold keys
    rw [List.mem_filter]
    constructor
    · rintro ⟨h1, h2⟩
      have hx : x ≠ -1 := by simpa using h2
      rcases (hm x hx).1 h1 with h | h
      · exact absurd (List.mem_replicate.1 h).2 hx
      · exact h
    · intro h
      have hx : x ≠ -1 := by have := hk x h; omega
      exact ⟨(hm x hx).2 (.inr h), by simpa using hx⟩
  refine ⟨{ m := 2 ^ p, s := s }, ?_, hI.len, ⟨p, rfl⟩, ?_, hperm, ?_⟩
  · unfold allocate; rw [e0]; exact e
  · have := Nat.pow_le_pow_right (n := 2) (by omega) hp
    simp only; omega
  · rw [countElms_ok hI.len, hperm.length_eq]

/-- `hash_set_size` returns the least power of two not below its argument (and at least one). -/
theorem hash_set_size_least {m : Nat} (hm : m ≤ 2 ^ 63) :
    ∃ p, hashSetSize m = 2 ^ p ∧ m ≤ 2 ^ p ∧ ∀ q, m ≤ 2 ^ q → 2 ^ p ≤ 2 ^ q := by
  obtain ⟨p, e, h1, h2⟩ := hashSetSize_ok hm
  refine ⟨p, e, h1, fun q hq => ?_⟩
  by_contra hc
  have hqp : q < p := by
    by_contra hqp
    exact hc (Nat.pow_le_pow_right (by omega) (by omega))
  have := h2 (by omega)
  have := Nat.pow_le_pow_right (n := 2) (by omega) (show q ≤ p - 1 by omega)
  omega

/-- The hypothesis on the hash function holds for the one in the code (with exact arithmetic). -/
theorem hashIdx_lt (k : Int) (_ : 0 ≤ k) (m : Nat) (hm : 0 < m) : hashIdx k m < m := by
  unfold hashIdx
  simp only
  generalize (k : Rat) * (6180339887498949 / 10000000000000000) = x
  have h1 : (x.floor : Rat) ≤ x := Rat.floor_le x
  have h2 : x < (x.floor : Rat) + 1 := by
    have := Rat.lt_floor_add_one x
    simpa using this
  have hm' : (0 : Rat) < m := by exact_mod_cast hm
  have h3 : (m : Rat) * (x - (x.floor : Rat)) < m := by
    have : x - (x.floor : Rat) < 1 := by linarith
    nlinarith
  have h4 : ((m : Rat) * (x - (x.floor : Rat))).floor < (m : Int) := by
    rw [Rat.floor_lt_iff]
    simpa using h3
  omega

/-- Non-vacuity and a run: capacity `2`, three distinct keys inserted with repetitions, one expansion. -/
example : insertAll hashIdx [7, 3, 7, 0, 3] (allocate 2) = .ok ([7, 3, 7, 0, 3], { m := 4, s := [0, 7, -1, 3] }) := by
  decide +kernel

end Opm.HashSet
