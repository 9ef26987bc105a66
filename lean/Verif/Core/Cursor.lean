import Verif.Core.Mem
/-!
# Output cursors

C code of the form `*p++ = x` for a pointer `p` that starts at the beginning of an array.
-/

namespace Opm

/-- An array together with the position of a pointer into it. -/
structure Cur (α : Type _) where
  buf : List α
  pos : Nat
  deriving Repr, DecidableEq

variable {α : Type _}

/-- `*p++ = x`. -/
def Cur.put (c : Cur α) (x : α) : M (Cur α) := do
  let b ← wr c.buf c.pos x
  .ok ⟨b, c.pos + 1⟩

/-- A sequence of `*p++ = x`. -/
def Cur.puts (c : Cur α) (l : List α) : M (Cur α) := l.foldlM Cur.put c

/-- `p[1] = p[0] + d; ++p`. -/
def Cur.bump (c : Cur Nat) (d : Nat) : M (Cur Nat) := do
  let v ← rd c.buf c.pos
  let b ← wr c.buf (c.pos + 1) (v + d)
  .ok ⟨b, c.pos + 1⟩

/-- The elements written so far are `l`; the array has `cap` elements. -/
def Cur.Rep (c : Cur α) (cap : Nat) (l : List α) : Prop := c.pos = l.length ∧ c.buf.length = cap ∧ c.buf.take l.length = l

/-- The array of `cap` elements starts with `0, d, 2d, …, n d` and the pointer is at the last of these. -/
def Cur.PosRep (c : Cur Nat) (cap d n : Nat) : Prop :=
  c.pos = n ∧ c.buf.length = cap ∧ c.buf.take (n + 1) = (List.range (n + 1)).map (fun i => d * i)

theorem Cur.put_rep {c : Cur α} {cap : Nat} {l : List α} (x : α) (h : c.Rep cap l) (hc : l.length < cap) :
    ∃ c', c.put x = .ok c' ∧ c'.Rep cap (l ++ [x]) := by
  obtain ⟨hp, hl, ht⟩ := h
  refine ⟨⟨c.buf.set c.pos x, c.pos + 1⟩, ?_, ?_, ?_, ?_⟩
  · unfold Cur.put
    rw [wr_ok (by omega)]
    rfl
  · simp [hp]
  · simpa using hl
  · simp only [hp, List.length_append, List.length_singleton]
    rw [List.take_succ_eq_append_getElem (by rw [List.length_set]; omega), List.take_set_of_le (Nat.le_refl _), ht]
    simp

theorem Cur.puts_rep {cap : Nat} (xs : List α) : ∀ {c : Cur α} {l : List α}, c.Rep cap l → l.length + xs.length ≤ cap →
    ∃ c', c.puts xs = .ok c' ∧ c'.Rep cap (l ++ xs) := by
  induction xs with
  | nil => intro c l h _; exact ⟨c, rfl, by simpa using h⟩
  | cons x xs ih =>
    intro c l h hc
    rw [List.length_cons] at hc
    obtain ⟨c1, h1, r1⟩ := Cur.put_rep x h (by omega)
    obtain ⟨c2, h2, r2⟩ := ih r1 (by rw [List.length_append, List.length_singleton]; omega)
    refine ⟨c2, ?_, by simpa using r2⟩
    unfold Cur.puts at h2 ⊢
    rw [List.foldlM_cons, h1, bind_ok, h2]

theorem Cur.bump_rep {c : Cur Nat} {cap d n : Nat} (h : c.PosRep cap d n) (hc : n + 1 < cap) :
    ∃ c', c.bump d = .ok c' ∧ c'.PosRep cap d (n + 1) := by
  obtain ⟨hp, hl, ht⟩ := h
  have hv : c.buf[n]? = some (d * n) := by
    have := congrArg (·[n]?) ht
    simpa [List.getElem?_take] using this
  refine ⟨⟨c.buf.set (n + 1) (d * n + d), n + 1⟩, ?_, rfl, by simpa using hl, ?_⟩
  · unfold Cur.bump
    rw [hp, rd_of_getElem? hv, bind_ok, wr_ok (by omega)]
    rfl
  · simp only
    rw [List.take_succ_eq_append_getElem (by rw [List.length_set]; omega), List.take_set_of_le (Nat.le_refl _), ht,
      List.range_succ (n := n + 1), List.map_append]
    simp [Nat.mul_add]

theorem Cur.rep_start {buf : List α} : (⟨buf, 0⟩ : Cur α).Rep buf.length [] := ⟨rfl, rfl, rfl⟩

theorem Cur.rep_full {c : Cur α} {cap : Nat} {l : List α} (h : c.Rep cap l) (hc : cap = l.length) : c.buf = l := by
  obtain ⟨_, hl, ht⟩ := h
  rw [List.take_of_length_le (by omega)] at ht
  exact ht

theorem Cur.posRep_full {c : Cur Nat} {cap d n : Nat} (h : c.PosRep cap d n) (hc : cap = n + 1) : c.buf = (List.range (n + 1)).map (fun i => d * i) := by
  obtain ⟨_, hl, ht⟩ := h
  rw [List.take_of_length_le (by omega)] at ht
  exact ht

/-- A loop whose iteration `i` appends the records `r i`. -/
theorem loop_emit {S β : Type _} (R : S → List β → Prop) (cap : Nat) {n : Nat} {body : Nat → S → M S} (r : Nat → List β)
    (hb : ∀ i, i < n → ∀ s l, R s l → l.length + (r i).length ≤ cap → ∃ s', body i s = .ok s' ∧ R s' (l ++ r i))
    {s : S} {l : List β} (h : R s l) (hc : l.length + ((List.range n).flatMap r).length ≤ cap) :
    ∃ s', loop n body s = .ok s' ∧ R s' (l ++ (List.range n).flatMap r) := by
  obtain ⟨t, ht, hR⟩ := loop_inv (n := n) (s := s) (f := body) (fun k t => R t (l ++ (List.range k).flatMap r)) (by simpa using h)
    (by
      intro k t hk hR
      have hlen : ((List.range k).flatMap r).length + (r k).length ≤ ((List.range n).flatMap r).length := by
        obtain ⟨m, rfl⟩ : ∃ m, n = k + 1 + m := ⟨n - (k + 1), by omega⟩
        rw [List.range_add, List.flatMap_append, List.length_append, List.range_succ, List.flatMap_append, List.length_append]
        simp
      obtain ⟨s', h1, h2⟩ := hb k hk t _ hR (by rw [List.length_append]; omega)
      refine ⟨s', h1, ?_⟩
      rw [List.range_succ, List.flatMap_append, ← List.append_assoc]
      simpa using h2)
  exact ⟨t, ht, hR⟩

end Opm
