import Verif.Core.Mem
/-!
# Loops over the rows of a compressed structure

Renders the C idiom `for (c = i = 0; c < n; c++) { t = pre(c); for (; i < pos[c + 1]; i++) f(c, i); }`, in which the position `i` carries over
from row to row, and the statement `a[k] += v`.  It models no particular file of `/repo`.
-/

namespace Opm

variable {σ τ : Type _}

/-- `for (c = i = 0; c < n; c++) { t = pre(c); for (; i < pos[c + 1]; i++) { f(c, t, i); } }` -/
def rowLoopPre (n : Nat) (pos : List Nat) (pre : Nat → M τ) (f : Nat → τ → Nat → σ → M σ) (s : σ) : M σ := do
  let r ← loop n (fun c (r : Nat × σ) => do
    let t ← pre c
    let e ← rd pos (c + 1)
    let s ← forRange r.1 e (f c t) r.2
    .ok (max r.1 e, s)) (0, s)
  .ok r.2

/-- `for (c = i = 0; c < n; c++) { for (; i < pos[c + 1]; i++) { f(c, i); } }` -/
def rowLoop (n : Nat) (pos : List Nat) (f : Nat → Nat → σ → M σ) (s : σ) : M σ :=
  rowLoopPre n pos (fun _ => .ok ()) (fun c _ => f c) s

/-- `a[k] += v;` -/
def addAt (a : List Rat) (k : Nat) (v : Rat) : M (List Rat) := do
  let x ← rd a k
  wr a k (x + v)

/-- The row pointers `pos[0] = 0 ≤ pos[1] ≤ … ≤ pos[n]` are present. -/
structure RowPos (n : Nat) (pos : List Nat) : Prop where
  len : n < pos.length
  zero : pos[0]? = some 0
  mono : ∀ c a b, c < n → pos[c]? = some a → pos[c + 1]? = some b → a ≤ b

theorem RowPos.get {n : Nat} {pos : List Nat} (h : RowPos n pos) {c : Nat} (hc : c ≤ n) : pos[c]? = some (pos.getD c 0) := by
  have : c < pos.length := by have := h.len; omega
  simp [List.getD_eq_getElem?_getD, this]

theorem RowPos.get_zero {n : Nat} {pos : List Nat} (h : RowPos n pos) : pos.getD 0 0 = 0 := by
  have := h.zero
  rw [h.get (Nat.zero_le _)] at this
  exact Option.some.inj this

theorem RowPos.le {n : Nat} {pos : List Nat} (h : RowPos n pos) {c : Nat} (hc : c < n) : pos.getD c 0 ≤ pos.getD (c + 1) 0 :=
  h.mono c _ _ hc (h.get (by omega)) (h.get hc)

theorem RowPos.mono' {n : Nat} {pos : List Nat} (h : RowPos n pos) {c d : Nat} (hcd : c ≤ d) (hd : d ≤ n) : pos.getD c 0 ≤ pos.getD d 0 := by
  induction d with
  | zero => obtain rfl : c = 0 := by omega
            exact Nat.le_refl _
  | succ d ih =>
    rcases Nat.lt_or_ge c (d + 1) with hlt | hge
    · exact Nat.le_trans (ih (by omega) (by omega)) (h.le (by omega))
    · obtain rfl : c = d + 1 := by omega
      exact Nat.le_refl _

theorem RowPos.lt_total {n : Nat} {pos : List Nat} (h : RowPos n pos) {c i : Nat} (hc : c < n) (hi : i < pos.getD (c + 1) 0) : i < pos.getD n 0 :=
  Nat.lt_of_lt_of_le hi (h.mono' (by omega) (Nat.le_refl _))

/-- Two rows that share a position are the same row. -/
theorem RowPos.row_unique {n : Nat} {pos : List Nat} (h : RowPos n pos) {c d i : Nat} (hc : c < n) (hd : d < n) (h1 : pos.getD c 0 ≤ i)
    (h2 : i < pos.getD (c + 1) 0) (h3 : pos.getD d 0 ≤ i) (h4 : i < pos.getD (d + 1) 0) : c = d := by
  rcases Nat.lt_trichotomy c d with hlt | heq | hgt
  · have := h.mono' (c := c + 1) (d := d) (by omega) (by omega); omega
  · exact heq
  · have := h.mono' (c := d + 1) (d := c) (by omega) (by omega); omega

/-- Hoare rule for `forRange`. -/
theorem forRange_inv {a b : Nat} {f : Nat → σ → M σ} {s : σ} (hab : a ≤ b) (P : Nat → σ → Prop) (h0 : P a s)
    (hs : ∀ i t, a ≤ i → i < b → P i t → ∃ t', f i t = .ok t' ∧ P (i + 1) t') : ∃ t, forRange a b f s = .ok t ∧ P b t := by
  obtain ⟨t, ht, hP⟩ := loop_inv (n := b - a) (s := s) (f := fun k s => f (a + k) s) (fun k t => P (a + k) t) h0
    (fun i t hi hP => hs (a + i) t (by omega) (by omega) hP)
  rw [show a + (b - a) = b by omega] at hP
  exact ⟨t, ht, hP⟩

/-- Hoare rule for `rowLoopPre`: the invariant holds at row `c`, position `i`. -/
theorem rowLoopPre_inv {n : Nat} {pos : List Nat} (hp : RowPos n pos) {pre : Nat → M τ} {f : Nat → τ → Nat → σ → M σ} {s : σ} (T : Nat → τ)
    (hpre : ∀ c, c < n → pre c = .ok (T c)) (P : Nat → Nat → σ → Prop) (h0 : P 0 0 s)
    (hs : ∀ c i t, c < n → pos.getD c 0 ≤ i → i < pos.getD (c + 1) 0 → P c i t → ∃ t', f c (T c) i t = .ok t' ∧ P c (i + 1) t')
    (hn : ∀ c t, c < n → P c (pos.getD (c + 1) 0) t → P (c + 1) (pos.getD (c + 1) 0) t) :
    ∃ t, rowLoopPre n pos pre f s = .ok t ∧ P n (pos.getD n 0) t := by
  obtain ⟨r, hr, h1, h2⟩ := loop_inv (n := n) (s := (0, s)) (f := fun c (r : Nat × σ) => do
      let t ← pre c
      let e ← rd pos (c + 1)
      let s ← forRange r.1 e (f c t) r.2
      .ok (max r.1 e, s)) (fun c r => r.1 = pos.getD c 0 ∧ P c r.1 r.2)
    ⟨by simp only; rw [hp.get_zero], by simpa using h0⟩
    (by
      rintro c ⟨i, t⟩ hc ⟨rfl, hP⟩
      simp only at hP
      obtain ⟨t', ht', hP'⟩ := forRange_inv (f := f c (T c)) (hp.le hc) (P c) hP (fun i t h1 h2 h => hs c i t hc h1 h2 h)
      refine ⟨(pos.getD (c + 1) 0, t'), ?_, rfl, hn c t' hc hP'⟩
      simp only [hpre c hc, rd_of_getElem? (hp.get (c := c + 1) hc), bind_ok, ht', Nat.max_eq_right (hp.le hc)])
  refine ⟨r.2, ?_, h1 ▸ h2⟩
  unfold rowLoopPre
  rw [hr]
  rfl

theorem rowLoop_inv {n : Nat} {pos : List Nat} (hp : RowPos n pos) {f : Nat → Nat → σ → M σ} {s : σ} (P : Nat → Nat → σ → Prop) (h0 : P 0 0 s)
    (hs : ∀ c i t, c < n → pos.getD c 0 ≤ i → i < pos.getD (c + 1) 0 → P c i t → ∃ t', f c i t = .ok t' ∧ P c (i + 1) t')
    (hn : ∀ c t, c < n → P c (pos.getD (c + 1) 0) t → P (c + 1) (pos.getD (c + 1) 0) t) :
    ∃ t, rowLoop n pos f s = .ok t ∧ P n (pos.getD n 0) t :=
  rowLoopPre_inv hp (fun _ => ()) (fun _ _ => rfl) P h0 hs hn

theorem addAt_ok {a : List Rat} {k : Nat} (h : k < a.length) (v : Rat) : addAt a k v = .ok (a.set k (a.getD k 0 + v)) := by
  unfold addAt
  rw [rd_ok h, bind_ok, wr_ok h]
  simp [List.getD_eq_getElem?_getD, h]

theorem getD_addAt {a : List Rat} {k : Nat} (h : k < a.length) (v : Rat) (j : Nat) :
    (a.set k (a.getD k 0 + v)).getD j 0 = a.getD j 0 + if j = k then v else 0 := by
  by_cases hj : j = k
  · subst hj; simp [List.getD_eq_getElem?_getD, h]
  · simp [List.getD_eq_getElem?_getD, hj, Ne.symm hj, Rat.add_zero]

theorem getElem?_getD {a : List Rat} {j : Nat} (h : j < a.length) : a[j]? = some (a.getD j 0) := by
  simp [List.getD_eq_getElem?_getD, h]

end Opm
