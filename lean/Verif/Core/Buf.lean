import Verif.Core.Mem
/-!
# Heap buffers

Renders `realloc` and `memcpy` on buffers given as lists.  It models no particular file of `/repo`.
Allocation always succeeds in the model (out-of-memory paths are not modelled); the contents of newly
allocated elements are given by an arbitrary function `junk`.
-/

namespace Opm

variable {α β : Type _}

/-- `realloc(l, n * sizeof *l)`: the first elements are kept, new ones are arbitrary. -/
def realloc (junk : Nat → α) (l : List α) (n : Nat) : List α :=
  l.take n ++ (List.range (n - l.length)).map (fun i => junk (l.length + i))

/-- `memcpy(dst + off, src, n * sizeof *dst)`. -/
def memcpy (dst : List α) (off : Nat) (src : List α) (n : Nat) : M (List α) :=
  if off + n ≤ dst.length ∧ n ≤ src.length then .ok (dst.take off ++ src.take n ++ dst.drop (off + n)) else .error .ub

@[simp] theorem length_realloc (junk : Nat → α) (l : List α) (n : Nat) : (realloc junk l n).length = n := by
  unfold realloc; simp; omega

theorem take_realloc {junk : Nat → α} {l : List α} {n m : Nat} (h1 : m ≤ l.length) (h2 : m ≤ n) :
    (realloc junk l n).take m = l.take m := by
  unfold realloc
  rw [List.take_append_of_le_length (by rw [List.length_take]; omega), List.take_take, Nat.min_eq_left h2]

theorem realloc_eq {junk : Nat → α} {l : List α} {n : Nat} (h : l.length ≤ n) :
    ∃ r, realloc junk l n = l ++ r ∧ r.length = n - l.length := by
  unfold realloc
  rw [List.take_of_length_le h]
  exact ⟨_, rfl, by simp⟩

theorem memcpy_ok {dst src : List α} {off n : Nat} (h1 : off + n ≤ dst.length) (h2 : n ≤ src.length) :
    memcpy dst off src n = .ok (dst.take off ++ src.take n ++ dst.drop (off + n)) := by
  unfold memcpy; rw [if_pos ⟨h1, h2⟩]

theorem length_memcpy {dst src r : List α} {off n : Nat} (h : memcpy dst off src n = .ok r) : r.length = dst.length := by
  unfold memcpy at h
  split at h
  · cases h; simp; omega
  · cases h

theorem take_set_succ {l : List α} {n : Nat} {x : α} (h : n < l.length) : (l.set n x).take (n + 1) = l.take n ++ [x] := by
  rw [List.take_succ_eq_append_getElem (by simpa using h)]
  congr 1
  · rw [List.take_set_of_le (by omega)]
  · simp

theorem take_memcpy {dst src : List α} {off n : Nat} (h1 : off + n ≤ dst.length) (h2 : n ≤ src.length) :
    (dst.take off ++ src.take n ++ dst.drop (off + n)).take (off + n) = dst.take off ++ src.take n := by
  rw [List.take_append_of_le_length (by simp; omega), List.take_of_length_le (by simp; omega)]

/-- Elements `a, …, a + k - 1` overwritten by `v`. -/
def bfill (a k : Nat) (v : α) (l : List α) : List α := l.take a ++ List.replicate k v ++ l.drop (a + k)

theorem bfill_zero (a : Nat) (v : α) (l : List α) : bfill a 0 v l = l := by
  unfold bfill; simp

theorem length_bfill {a k : Nat} {v : α} {l : List α} (h : a + k ≤ l.length) : (bfill a k v l).length = l.length := by
  unfold bfill; simp; omega

theorem bfill_succ {a k : Nat} {v : α} {l : List α} (h : a + k < l.length) :
    (bfill a k v l).set (a + k) v = bfill a (k + 1) v l := by
  unfold bfill
  have hl : (l.take a ++ List.replicate k v).length = a + k := by simp; omega
  rw [List.set_append_right _ _ (by omega), hl, Nat.sub_self, List.drop_eq_getElem_cons h, List.set_cons_zero,
    List.replicate_succ', Nat.add_assoc]
  simp [List.append_assoc]

theorem bfill_realloc {junk : Nat → α} {l : List α} {n : Nat} {v : α} (h : l.length ≤ n) :
    bfill l.length (n - l.length) v (realloc junk l n) = l ++ List.replicate (n - l.length) v := by
  unfold bfill
  rw [take_realloc (Nat.le_refl _) h, List.take_length, List.drop_of_length_le (by simp; omega), List.append_nil]

end Opm
