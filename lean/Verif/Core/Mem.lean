/-!
# Outcome monad and checked arrays

Shared infrastructure of the model.  It models no particular file of `/repo`; it fixes how
the C and C++ features the model needs are rendered:

* `Err.ub`         – undefined behaviour (out-of-bounds access, bad pointer, division by zero);
* `Err.assertFail` – a failed `assert` / `ASSERT`;
* `Err.thrown`     – a C++ exception (`THROW`, `throw`);
* `Err.nonFinite`  – a floating-point operation whose result is not a finite number (division by zero);
* `Err.timeout`    – the fuel of a modelled `while` loop ran out.

A buffer is a `List`, its length is the number of allocated elements.
-/

namespace Opm

/-- The ways in which a modelled call can fail to return normally. -/
inductive Err where
  | ub
  | assertFail
  | thrown
  | nonFinite
  | timeout
  deriving DecidableEq, Repr

/-- Outcome of a modelled call. -/
abbrev M (α : Type _) := Except Err α

instance {α : Type _} [DecidableEq α] : DecidableEq (M α)
  | .ok a, .ok b => if h : a = b then isTrue (by rw [h]) else isFalse (by intro h'; cases h'; exact h rfl)
  | .error a, .error b =>
    if h : a = b then isTrue (by rw [h]) else isFalse (by intro h'; cases h'; exact h rfl)
  | .ok _, .error _ => isFalse (by intro h; cases h)
  | .error _, .ok _ => isFalse (by intro h; cases h)

/-- Checked array read `a[i]`. -/
def rd {α : Type _} (a : List α) (i : Nat) : M α :=
  match a[i]? with
  | some x => .ok x
  | none => .error .ub

/-- Checked array write `a[i] = x`. -/
def wr {α : Type _} (a : List α) (i : Nat) (x : α) : M (List α) :=
  if i < a.length then .ok (a.set i x) else .error .ub

/-- Checked array read at a signed index. -/
def rdI {α : Type _} (a : List α) (i : Int) : M α :=
  if i < 0 then .error .ub else rd a i.toNat

/-- Checked array write at a signed index. -/
def wrI {α : Type _} (a : List α) (i : Int) (x : α) : M (List α) :=
  if i < 0 then .error .ub else wr a i.toNat x

/-- `assert(b)`. -/
def check (b : Bool) : M Unit := if b then .ok () else .error .assertFail

/-- Floating-point division `a / b`; numbers are exact rationals, so division by zero has no value. -/
def fdiv (a b : Rat) : M Rat := if b = 0 then .error .nonFinite else .ok (a / b)

/-- `for (i = 0; i < n; ++i) s = f(i, s);` -/
def loop {σ : Type _} : Nat → (Nat → σ → M σ) → σ → M σ
  | 0, _, s => .ok s
  | n + 1, f, s => do
    let s ← loop n f s
    f n s

/-- `for (j = a; j < b; ++j) s = f(j, s);` -/
def forRange {σ : Type _} (a b : Nat) (f : Nat → σ → M σ) (s : σ) : M σ :=
  loop (b - a) (fun k s => f (a + k) s) s

/-- `while (true)` with an explicit fuel: `f s` returns the new state and whether to go on. -/
def whileFuel {σ : Type _} : Nat → (σ → M (σ × Bool)) → σ → M σ
  | 0, _, _ => .error .timeout
  | k + 1, f, s => do
    let (s', go) ← f s
    if go then whileFuel k f s' else .ok s'

variable {α σ : Type _}

@[simp] theorem bind_ok (x : α) (f : α → M σ) : ((Except.ok x : M α) >>= f) = f x := rfl

@[simp] theorem bind_error (e : Err) (f : α → M σ) :
    ((Except.error e : M α) >>= f) = .error e := rfl

@[simp] theorem pure_eq_ok (x : α) : (pure x : M α) = .ok x := rfl

@[simp] theorem map_ok (x : α) (f : α → σ) : (f <$> (Except.ok x : M α)) = .ok (f x) := rfl

theorem bind_eq_ok {x : M α} {f : α → M σ} {y : σ} :
    (x >>= f) = .ok y ↔ ∃ a, x = .ok a ∧ f a = .ok y := by
  cases x with
  | error e => simp
  | ok a => simp

theorem rd_ok {a : List α} {i : Nat} (h : i < a.length) : rd a i = .ok a[i] := by
  simp [rd, h]

theorem rd_eq_ok {a : List α} {i : Nat} {x : α} : rd a i = .ok x ↔ a[i]? = some x := by
  unfold rd
  cases h : a[i]? <;> simp

theorem rd_of_getElem? {a : List α} {i : Nat} {x : α} (h : a[i]? = some x) : rd a i = .ok x :=
  rd_eq_ok.2 h

theorem rd_ub {a : List α} {i : Nat} (h : a.length ≤ i) : rd a i = .error .ub := by
  simp [rd, List.getElem?_eq_none h]

theorem wr_ok {a : List α} {i : Nat} {x : α} (h : i < a.length) : wr a i x = .ok (a.set i x) := by
  simp [wr, h]

theorem wr_eq_ok {a b : List α} {i : Nat} {x : α} :
    wr a i x = .ok b ↔ i < a.length ∧ b = a.set i x := by
  unfold wr
  split
  · rename_i h
    constructor
    · intro h'; cases h'; exact ⟨h, rfl⟩
    · rintro ⟨_, rfl⟩; rfl
  · rename_i h
    constructor
    · intro h'; cases h'
    · rintro ⟨h', _⟩; exact absurd h' h

theorem wr_ub {a : List α} {i : Nat} {x : α} (h : a.length ≤ i) : wr a i x = .error .ub := by
  simp [wr, Nat.not_lt.2 h]

@[simp] theorem rdI_natCast (a : List α) (i : Nat) : rdI a (i : Int) = rd a i := by
  have h : ¬ ((i : Int) < 0) := by omega
  simp [rdI, h]

@[simp] theorem wrI_natCast (a : List α) (i : Nat) (x : α) : wrI a (i : Int) x = wr a i x := by
  have h : ¬ ((i : Int) < 0) := by omega
  simp [wrI, h]

theorem check_ok {b : Bool} (h : b = true) : check b = .ok () := by simp [check, h]

theorem check_eq_ok {b : Bool} {u : Unit} : check b = .ok u ↔ b = true := by
  cases b <;> simp [check]

theorem fdiv_ok {a b : Rat} (h : b ≠ 0) : fdiv a b = .ok (a / b) := by simp [fdiv, h]

@[simp] theorem loop_zero (f : Nat → σ → M σ) (s : σ) : loop 0 f s = .ok s := rfl

theorem loop_succ (n : Nat) (f : Nat → σ → M σ) (s : σ) :
    loop (n + 1) f s = (loop n f s >>= fun s => f n s) := rfl

/-- Hoare rule for counted loops: an invariant indexed by the loop counter. -/
theorem loop_inv {n : Nat} {f : Nat → σ → M σ} {s : σ} (P : Nat → σ → Prop) (h0 : P 0 s)
    (hs : ∀ i t, i < n → P i t → ∃ t', f i t = .ok t' ∧ P (i + 1) t') :
    ∃ t, loop n f s = .ok t ∧ P n t := by
  induction n with
  | zero => exact ⟨s, rfl, h0⟩
  | succ n ih =>
    obtain ⟨t, ht, hP⟩ := ih (fun i t hi => hs i t (by omega))
    obtain ⟨t', ht', hP'⟩ := hs n t (by omega) hP
    exact ⟨t', by simp [loop_succ, ht, ht'], hP'⟩

/-- Two loops with pointwise equal bodies agree. -/
theorem loop_congr {n : Nat} {f g : Nat → σ → M σ} {s : σ}
    (h : ∀ i t, i < n → f i t = g i t) : loop n f s = loop n g s := by
  induction n with
  | zero => rfl
  | succ n ih =>
    rw [loop_succ, loop_succ, ih (fun i t hi => h i t (by omega))]
    cases loop n g s with
    | error e => rfl
    | ok t => simp [h n t (by omega)]

theorem whileFuel_succ (k : Nat) (f : σ → M (σ × Bool)) (s : σ) :
    whileFuel (k + 1) f s = (f s >>= fun p => if p.2 then whileFuel k f p.1 else .ok p.1) := rfl

/-- More fuel does not change a result that was not a timeout. -/
theorem whileFuel_mono {k k' : Nat} {f : σ → M (σ × Bool)} {s : σ} {r : M σ}
    (h : whileFuel k f s = r) (hr : r ≠ .error .timeout) (hk : k ≤ k') :
    whileFuel k' f s = r := by
  induction k generalizing s k' with
  | zero => exact absurd h.symm hr
  | succ k ih =>
    obtain ⟨k'', rfl⟩ : ∃ k'', k' = k'' + 1 := ⟨k' - 1, by omega⟩
    rw [whileFuel_succ] at h ⊢
    cases hf : f s with
    | error e => rw [hf] at h; simpa using h
    | ok p =>
      rw [hf] at h
      simp only [bind_ok] at h ⊢
      split
      · rename_i hp
        rw [if_pos hp] at h
        exact ih h (by omega)
      · rename_i hp
        rw [if_neg hp] at h
        exact h

/-- Total-correctness rule for `whileFuel`: an invariant and a strictly decreasing measure. -/
theorem whileFuel_inv {f : σ → M (σ × Bool)} (P : σ → Prop) (Q : σ → Prop) (μ : σ → Nat)
    (hstep : ∀ s, P s → ∃ s' go, f s = .ok (s', go) ∧
      (go = true → P s' ∧ μ s' < μ s) ∧ (go = false → Q s'))
    {s : σ} (hs : P s) {k : Nat} (hk : μ s < k) : ∃ t, whileFuel k f s = .ok t ∧ Q t := by
  induction k generalizing s with
  | zero => omega
  | succ k ih =>
    obtain ⟨s', go, hf, hgo, hstop⟩ := hstep s hs
    cases go with
    | true =>
      obtain ⟨hP, hμ⟩ := hgo rfl
      obtain ⟨t, ht, hQ⟩ := ih hP (by omega)
      exact ⟨t, by simp [whileFuel_succ, hf, ht], hQ⟩
    | false => exact ⟨s', by simp [whileFuel_succ, hf], hstop rfl⟩

/-- Total-correctness rule for `whileFuel` with the measure carried by the invariant. -/
theorem whileFuel_rank {f : σ → M (σ × Bool)} (P : Nat → σ → Prop) (Q : σ → Prop)
    (hstep : ∀ m s, P m s → ∃ s' go, f s = .ok (s', go) ∧
      (go = true → ∃ m', m' < m ∧ P m' s') ∧ (go = false → Q s'))
    {m : Nat} {s : σ} (hs : P m s) {k : Nat} (hk : m < k) : ∃ t, whileFuel k f s = .ok t ∧ Q t := by
  induction k generalizing s m with
  | zero => omega
  | succ k ih =>
    obtain ⟨s', go, hf, hgo, hstop⟩ := hstep m s hs
    cases go with
    | true =>
      obtain ⟨m', hm', hP⟩ := hgo rfl
      obtain ⟨t, ht, hQ⟩ := ih hP (by omega)
      exact ⟨t, by simp [whileFuel_succ, hf, ht], hQ⟩
    | false => exact ⟨s', by simp [whileFuel_succ, hf], hstop rfl⟩

theorem rdI_of_getElem? {a : List α} {i : Int} {n : Nat} {x : α} (hi : i = (n : Int))
    (h : a[n]? = some x) : rdI a i = .ok x := by
  subst hi; rw [rdI_natCast]; exact rd_of_getElem? h

theorem wrI_ok {a : List α} {i : Int} {n : Nat} {x : α} (hi : i = (n : Int)) (h : n < a.length) :
    wrI a i x = .ok (a.set n x) := by
  subst hi; rw [wrI_natCast]; exact wr_ok h

/-- Hoare rule for a loop over a list: an invariant indexed by the processed prefix. -/
theorem foldlM_inv {β : Type _} {l : List β} {f : σ → β → M σ} {s : σ} (P : List β → σ → Prop) (h0 : P [] s)
    (hs : ∀ done x rest t, l = done ++ x :: rest → P done t → ∃ t', f t x = .ok t' ∧ P (done ++ [x]) t') :
    ∃ t, l.foldlM f s = .ok t ∧ P l t := by
  suffices h : ∀ (rest done : List β) (t : σ), l = done ++ rest → P done t →
      ∃ t', rest.foldlM f t = .ok t' ∧ P l t' from h l [] s rfl h0
  intro rest
  induction rest with
  | nil =>
    intro done t hl hP
    rw [List.append_nil] at hl
    exact ⟨t, rfl, hl ▸ hP⟩
  | cons x rest ih =>
    intro done t hl hP
    obtain ⟨t1, e1, h1⟩ := hs done x rest t hl hP
    obtain ⟨t2, e2, h2⟩ := ih (done ++ [x]) t1 (by rw [hl]; simp) h1
    exact ⟨t2, by rw [List.foldlM_cons, e1]; exact e2, h2⟩

end Opm
