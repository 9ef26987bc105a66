import Verif.Core.Buf
import Verif.Spec.Slice
import Mathlib.Data.List.Induction
/-! # Buffers holding rows of equal length -/

namespace Opm
variable {α : Type _}

theorem length_flatten_rows {rows : List (List α)} {n : Nat} (h : ∀ r ∈ rows, r.length = n) : rows.flatten.length = rows.length * n := by
  induction rows with
  | nil => simp
  | cons r rows ih =>
    rw [List.flatten_cons, List.length_append, ih (fun r hr => h r (List.mem_cons_of_mem _ hr)), h r List.mem_cons_self, List.length_cons,
      Nat.succ_mul]
    omega

theorem flatten_split {rows : List (List α)} {i : Nat} {r : List α} (hr : rows[i]? = some r) :
    rows.flatten = (rows.take i).flatten ++ (r ++ (rows.drop (i + 1)).flatten) := by
  have hi := (List.getElem?_eq_some_iff.1 hr).1
  have e := (List.getElem?_eq_some_iff.1 hr).2
  calc rows.flatten = (rows.take i ++ rows.drop i).flatten := by rw [List.take_append_drop]
    _ = _ := by rw [List.drop_eq_getElem_cons hi, e, List.flatten_append, List.flatten_cons]

/-- Row `i` of a buffer whose first rows are `rows`. -/
theorem slice_row {buf : List α} {rows : List (List α)} {n : Nat} (h : ∀ r ∈ rows, r.length = n)
    (hb : buf.take (rows.length * n) = rows.flatten) {i : Nat} {r : List α} (hr : rows[i]? = some r) :
    slice buf (i * n) ((i + 1) * n) = .ok r := by
  have hi := (List.getElem?_eq_some_iff.1 hr).1
  have hrl : r.length = n := h r (List.mem_of_getElem? hr)
  have hle : (i + 1) * n ≤ rows.length * n := Nat.mul_le_mul_right _ hi
  have hfl := length_flatten_rows h
  have hbl : rows.length * n ≤ buf.length := by
    rw [← hb, List.length_take] at hfl
    omega
  have h1 : (i + 1) * n = i * n + n := Nat.succ_mul i n
  have hti : ((rows.take i).flatten).length = i * n := by
    rw [length_flatten_rows (fun r hr => h r (List.mem_of_mem_take hr)), List.length_take, Nat.min_eq_left (by omega)]
  unfold slice
  rw [if_pos ⟨by omega, by omega⟩]
  congr 1
  have e : buf.take ((i + 1) * n) = (rows.take i).flatten ++ r := by
    rw [← Nat.min_eq_left hle, ← List.take_take, hb, flatten_split hr, ← List.append_assoc]
    have : (i + 1) * n = ((rows.take i).flatten ++ r).length := by rw [List.length_append, hti, hrl, h1]
    rw [this]
    exact List.take_left
  rw [e, ← hti]
  exact List.drop_left

/-- Appending a row by `memcpy`. -/
theorem memcpy_row {buf : List α} {rows : List (List α)} {n cap : Nat} {r : List α} (hb : buf.take (rows.length * n) = rows.flatten)
    (hl : buf.length = cap * n) (hc : rows.length < cap) (hr : r.length = n) :
    ∃ b', memcpy buf (rows.length * n) r n = .ok b' ∧ b'.length = cap * n ∧
      b'.take ((rows ++ [r]).length * n) = (rows ++ [r]).flatten := by
  have h1 : (rows.length + 1) * n = rows.length * n + n := Nat.succ_mul _ n
  have hle : (rows.length + 1) * n ≤ cap * n := Nat.mul_le_mul_right _ hc
  refine ⟨_, memcpy_ok (by omega) (by omega), ?_, ?_⟩
  · simp; omega
  · rw [List.length_append, List.length_singleton, h1, take_memcpy (by omega) (by omega), hb, List.flatten_append]
    rw [List.take_of_length_le (by omega)]
    simp

/-- Appending an element. -/
theorem wr_elem {buf : List α} {es : List α} {cap : Nat} {e : α} (hb : buf.take es.length = es) (hl : buf.length = cap) (hc : es.length < cap) :
    ∃ b', wr buf es.length e = .ok b' ∧ b'.length = cap ∧ b'.take (es ++ [e]).length = es ++ [e] := by
  refine ⟨_, wr_ok (by omega), by simpa using hl, ?_⟩
  rw [List.length_append, List.length_singleton, take_set_succ (by omega), hb]

theorem rd_elem {buf : List α} {es : List α} (hb : buf.take es.length = es) {i : Nat} {e : α} (he : es[i]? = some e) : rd buf i = .ok e := by
  have hi := (List.getElem?_eq_some_iff.1 he).1
  apply rd_of_getElem?
  rw [← hb, List.getElem?_take, if_pos hi] at he
  exact he

theorem realloc_elem {junk : Nat → α} {buf es : List α} {cap n : Nat} (hb : buf.take es.length = es) (hl : buf.length = cap) (hc : es.length ≤ cap)
    (hn : es.length ≤ n) : (realloc junk buf n).length = n ∧ (realloc junk buf n).take es.length = es := by
  refine ⟨length_realloc _ _ _, ?_⟩
  rw [take_realloc (by omega) hn, hb]

theorem realloc_row {junk : Nat → α} {buf : List α} {rows : List (List α)} {n cap k : Nat} (hb : buf.take (rows.length * n) = rows.flatten)
    (hl : buf.length = cap * n) (hc : rows.length ≤ cap) (hk : rows.length ≤ k) :
    (realloc junk buf (k * n)).length = k * n ∧ (realloc junk buf (k * n)).take (rows.length * n) = rows.flatten := by
  refine ⟨length_realloc _ _ _, ?_⟩
  rw [take_realloc (by rw [hl]; exact Nat.mul_le_mul_right _ hc) (Nat.mul_le_mul_right _ hk), hb]

end Opm

namespace Opm
variable {α : Type _}

/-- Overwriting the middle part of a buffer. -/
theorem memcpy_mid {A B C d : List α} {off n : Nat} (h1 : A.length = off) (h2 : B.length = n) (hd : n ≤ d.length) :
    memcpy (A ++ (B ++ C)) off d n = .ok (A ++ (d.take n ++ C)) := by
  subst h1; subst h2
  rw [memcpy_ok (by simp) hd]
  congr 1
  rw [List.take_left, ← List.append_assoc A B C, ← List.length_append, List.drop_left, List.append_assoc]

/-- Filling a range with a constant. -/
theorem forRange_bfill (a n : Nat) (v : α) (l : List α) (h : n ≤ l.length) :
    forRange a n (fun i l => wr l i v) l = .ok (bfill a (n - a) v l) := by
  unfold forRange
  obtain ⟨t, ht, rfl⟩ := loop_inv (n := n - a) (s := l) (f := fun k s => wr s (a + k) v) (fun k t => t = bfill a k v l) (bfill_zero a v l).symm
    (by
      rintro k t hk rfl
      exact ⟨_, wr_ok (by rw [length_bfill (by omega)]; omega), bfill_succ (by omega)⟩)
  exact ht

theorem mapM_range_ok {β : Type _} (f : Nat → M β) (l : List β) (h : ∀ (i : Nat) (x : β), l[i]? = some x → f i = .ok x) :
    (List.range l.length).mapM f = .ok l := by
  induction l using List.reverseRecOn with
  | nil => rfl
  | append_singleton l x ih =>
    rw [List.length_append, List.length_singleton, List.range_succ, List.mapM_append, ih (fun i y hy => h i y (by
      rw [List.getElem?_append_left (List.getElem?_eq_some_iff.1 hy).1]; exact hy)), bind_ok]
    have : f l.length = .ok x := h _ _ (by simp)
    simp [this]

end Opm
