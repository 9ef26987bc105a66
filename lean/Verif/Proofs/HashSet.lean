import Verif.Model.HashSet
import Mathlib.Data.Nat.Bitwise
import Mathlib.Data.List.Nodup
import Mathlib.Data.List.Dedup
import Mathlib.Data.List.Perm.Subperm
import Mathlib.Data.Fintype.Card
import Mathlib.Data.Fintype.EquivFin
import Mathlib.Data.Nat.GCD.Basic
import Mathlib.Data.Nat.ModEq
import Mathlib.Data.Nat.Prime.Basic
/-! # Proofs about the hash set -/

namespace Opm.HashSet
open Opm

theorem isPow2_two_pow (p : Nat) : isPow2 (2 ^ p) = true := by
  simp [isPow2, Nat.and_two_pow_sub_one_eq_mod]

theorem and_mask {j p : Nat} : j &&& (2 ^ p - 1) = j % 2 ^ p := Nat.and_two_pow_sub_one_eq_mod j p

/-- The `n`-th slot probed for key `k`. -/
def pos (h : Int → Nat → Nat) (m : Nat) (k : Int) (n : Nat) : Nat :=
  (h k m + n * (2 * h k (max (m >>> 1) 1) + 1)) % m

variable {h : Int → Nat → Nat}

theorem pos_lt {m : Nat} (hm : 0 < m) (k : Int) (n : Nat) : pos h m k n < m := Nat.mod_lt _ hm

theorem pos_succ {p : Nat} (k : Int) (n : Nat) :
    (pos h (2 ^ p) k n + (2 * h k (max (2 ^ p >>> 1) 1) + 1)) &&& (2 ^ p - 1) = pos h (2 ^ p) k (n + 1) := by
  rw [and_mask]
  unfold pos
  rw [Nat.mod_add_mod]
  congr 1
  rw [Nat.add_mul, Nat.one_mul, Nat.add_assoc]

theorem pos_inj {p : Nat} (k : Int) {a b : Nat} (ha : a < 2 ^ p) (hb : b < 2 ^ p)
    (heq : pos h (2 ^ p) k a = pos h (2 ^ p) k b) : a = b := by
  have h1 : a * (2 * h k (max (2 ^ p >>> 1) 1) + 1) ≡ b * (2 * h k (max (2 ^ p >>> 1) 1) + 1) [MOD 2 ^ p] :=
    Nat.ModEq.add_left_cancel' _ heq
  have hcop : Nat.gcd (2 ^ p) (2 * h k (max (2 ^ p >>> 1) 1) + 1) = 1 := by
    apply Nat.Coprime.pow_left
    rw [Nat.coprime_two_left, Nat.odd_iff]; omega
  have h2 := Nat.ModEq.cancel_right_of_coprime hcop h1
  have h3 : a % 2 ^ p = b % 2 ^ p := h2
  rwa [Nat.mod_eq_of_lt ha, Nat.mod_eq_of_lt hb] at h3

theorem pos_surj {p : Nat} (k : Int) {j : Nat} (hj : j < 2 ^ p) : ∃ n, n < 2 ^ p ∧ pos h (2 ^ p) k n = j := by
  have hpos : 0 < 2 ^ p := Nat.two_pow_pos p
  have hinj : Function.Injective (fun n : Fin (2 ^ p) => (⟨pos h (2 ^ p) k n, pos_lt hpos k n⟩ : Fin (2 ^ p))) := by
    intro a b hab
    exact Fin.ext (pos_inj k a.2 b.2 (by simpa using hab))
  obtain ⟨n, hn⟩ := (Finite.injective_iff_surjective.1 hinj) ⟨j, hj⟩
  exact ⟨n, n.2, by simpa using congrArg Fin.val hn⟩

/-- A slot that stops the search for `k`. -/
def Stop (s : List Int) (k : Int) (j : Nat) : Prop := s[j]? = some (-1) ∨ s[j]? = some k

/-- A slot taken by another key. -/
def Taken (s : List Int) (k : Int) (j : Nat) : Prop := ∃ x, s[j]? = some x ∧ x ≠ -1 ∧ x ≠ k

theorem probe_ok {p : Nat} {k : Int} {s : List Int} (hs : s.length = 2 ^ p) (rem n : Nat) (hn : n + rem = 2 ^ p - 1) :
    ∃ n', n ≤ n' ∧ n' ≤ 2 ^ p - 1 ∧
      probe k (2 ^ p) (2 * h k (max (2 ^ p >>> 1) 1) + 1) s rem (pos h (2 ^ p) k n) = .ok (pos h (2 ^ p) k n') ∧
      (∀ i, n ≤ i → i < n' → Taken s k (pos h (2 ^ p) k i)) ∧ (n' = 2 ^ p - 1 ∨ Stop s k (pos h (2 ^ p) k n')) := by
  induction rem generalizing n with
  | zero => exact ⟨n, Nat.le_refl _, by omega, rfl, by intro i h1 h2; omega, .inl (by omega)⟩
  | succ rem ih =>
    have hlt : pos h (2 ^ p) k n < s.length := by rw [hs]; exact pos_lt (Nat.two_pow_pos p) k n
    have hg := List.getElem?_eq_getElem hlt
    unfold probe
    rw [rd_of_getElem? hg, bind_ok]
    by_cases hx : s[pos h (2 ^ p) k n] ≠ -1 ∧ s[pos h (2 ^ p) k n] ≠ k
    · rw [if_pos hx, pos_succ]
      obtain ⟨n', h1, h2, h3, h4, h5⟩ := ih (n + 1) (by omega)
      refine ⟨n', by omega, h2, h3, ?_, h5⟩
      intro i hi hi'
      by_cases hin : i = n
      · subst hin; exact ⟨_, hg, hx.1, hx.2⟩
      · exact h4 i (by omega) hi'
    · rw [if_neg hx]
      refine ⟨n, Nat.le_refl _, by omega, rfl, by intro i h1 h2; omega, .inr ?_⟩
      unfold Stop
      rw [hg]
      simp only [Option.some.injEq]
      by_contra hc
      exact hx ⟨fun h => hc (.inl h), fun h => hc (.inr h)⟩

/-- The two possible outcomes of `hash_set_insert_core`. -/
theorem insertCore_ok {p : Nat} {k : Int} {s : List Int} (hh : ∀ k : Int, 0 ≤ k → ∀ m, 0 < m → h k m < m) (hk : 0 ≤ k)
    (hs : s.length = 2 ^ p) :
    (∃ n, n < 2 ^ p ∧ Stop s k (pos h (2 ^ p) k n) ∧ (∀ i, i < n → Taken s k (pos h (2 ^ p) k i)) ∧
      insertCore h k (2 ^ p) s = .ok (pos h (2 ^ p) k n, s.set (pos h (2 ^ p) k n) k)) ∨
    ((∀ i, i < 2 ^ p → Taken s k (pos h (2 ^ p) k i)) ∧ insertCore h k (2 ^ p) s = .ok (2 ^ p + 1, s)) := by
  have hpos : 0 < 2 ^ p := Nat.two_pow_pos p
  have hlt := hh k hk (2 ^ p) hpos
  have h0 : pos h (2 ^ p) k 0 = h k (2 ^ p) := by
    unfold pos; rw [Nat.zero_mul, Nat.add_zero]; exact Nat.mod_eq_of_lt hlt
  have hg := List.getElem?_eq_getElem (show h k (2 ^ p) < s.length by omega)
  have hcore : insertCore h k (2 ^ p) s = (if s[h k (2 ^ p)] = -1 then (do
        let s ← wr s (h k (2 ^ p)) k
        .ok (h k (2 ^ p), s))
      else if s[h k (2 ^ p)] = k then .ok (h k (2 ^ p), s)
      else do
        let j ← probe k (2 ^ p) (2 * h k (max (2 ^ p >>> 1) 1) + 1) s (2 ^ p - 1) (h k (2 ^ p))
        let y ← rd s j
        if y = -1 ∨ y = k then do
          let s ← wr s j k
          .ok (j, s)
        else .ok (2 ^ p + 1, s)) := by
    unfold insertCore
    rw [check_ok (by simpa using hpos), bind_ok, check_ok (isPow2_two_pow p), bind_ok]
    simp only
    rw [check_ok (by simpa using hlt), bind_ok, rd_of_getElem? hg, bind_ok]
  rw [hcore]
  by_cases hx : s[h k (2 ^ p)] = -1
  · left
    refine ⟨0, hpos, .inl (by rw [h0, hg, hx]), by intro i hi; omega, ?_⟩
    rw [if_pos hx, wr_ok (by omega), bind_ok, h0]
  · rw [if_neg hx]
    by_cases hxk : s[h k (2 ^ p)] = k
    · left
      refine ⟨0, hpos, .inr (by rw [h0, hg, hxk]), by intro i hi; omega, ?_⟩
      rw [if_pos hxk, h0]
      congr 2
      conv => lhs; rw [← List.set_getElem_self (show h k (2 ^ p) < s.length by omega)]
      rw [hxk]
    · rw [if_neg hxk]
      obtain ⟨n', h1, h2, h3, h4, h5⟩ := probe_ok (h := h) (k := k) hs (2 ^ p - 1) 0 (by omega)
      rw [h0] at h3
      have hlt' : pos h (2 ^ p) k n' < s.length := by rw [hs]; exact pos_lt hpos k n'
      have hg' := List.getElem?_eq_getElem hlt'
      rw [h3, bind_ok, rd_of_getElem? hg', bind_ok]
      by_cases hy : s[pos h (2 ^ p) k n'] = -1 ∨ s[pos h (2 ^ p) k n'] = k
      · left
        refine ⟨n', by omega, ?_, fun i hi => h4 i (by omega) hi, ?_⟩
        · unfold Stop; rw [hg']; simpa using hy
        · rw [if_pos hy, wr_ok hlt', bind_ok]
      · right
        rw [if_neg hy]
        refine ⟨?_, rfl⟩
        have hn' : n' = 2 ^ p - 1 := by
          rcases h5 with h5 | h5
          · exact h5
          · exfalso; apply hy; unfold Stop at h5; rw [hg'] at h5; simpa using h5
        intro i hi
        by_cases hin : i = n'
        · subst hin
          exact ⟨_, hg', fun h => hy (.inl h), fun h => hy (.inr h)⟩
        · exact h4 i (by omega) (by omega)

/-- The table invariant. -/
structure Inv (h : Int → Nat → Nat) (p : Nat) (s : List Int) : Prop where
  len : s.length = 2 ^ p
  ge : ∀ x ∈ s, -1 ≤ x
  path : ∀ (j : Nat) (k : Int), s[j]? = some k → k ≠ -1 → ∃ n, n < 2 ^ p ∧ j = pos h (2 ^ p) k n ∧
    ∀ i, i < n → Taken s k (pos h (2 ^ p) k i)

theorem Inv.uniq {p : Nat} {s : List Int} (hi : Inv h p s) {j j' : Nat} {k : Int} (h1 : s[j]? = some k)
    (h2 : s[j']? = some k) (hk : k ≠ -1) : j = j' := by
  obtain ⟨n, hn, e1, t1⟩ := hi.path j k h1 hk
  obtain ⟨n', hn', e2, t2⟩ := hi.path j' k h2 hk
  rcases Nat.lt_trichotomy n n' with hlt | heq | hgt
  · obtain ⟨x, hx, _, hne⟩ := t2 n hlt
    rw [← e1, h1] at hx; cases hx; exact absurd rfl hne
  · rw [e1, e2, heq]
  · obtain ⟨x, hx, _, hne⟩ := t1 n' hgt
    rw [← e2, h2] at hx; cases hx; exact absurd rfl hne

theorem inv_empty (h : Int → Nat → Nat) (p : Nat) : Inv h p (List.replicate (2 ^ p) (-1)) where
  len := by simp
  ge := by intro x hx; rw [List.mem_replicate] at hx; omega
  path := by
    intro j k hj hk
    have := List.mem_of_getElem? hj
    rw [List.mem_replicate] at this
    exact absurd this.2 hk

/-- Storing `k` in the first stopping slot keeps the invariant and adds `k`. -/
theorem Inv.insert {p : Nat} {s : List Int} (hi : Inv h p s) {k : Int} (hk : 0 ≤ k) {n : Nat} (hn : n < 2 ^ p)
    (hstop : Stop s k (pos h (2 ^ p) k n)) (htk : ∀ i, i < n → Taken s k (pos h (2 ^ p) k i)) :
    Inv h p (s.set (pos h (2 ^ p) k n) k) ∧
      ∀ x : Int, x ≠ -1 → (x ∈ s.set (pos h (2 ^ p) k n) k ↔ x ∈ s ∨ x = k) := by
  have hpos : 0 < 2 ^ p := Nat.two_pow_pos p
  set j := pos h (2 ^ p) k n with hj
  have hjl : j < s.length := by rw [hi.len]; exact pos_lt hpos k n
  have hmem : ∀ x : Int, x ≠ -1 → (x ∈ s.set j k ↔ x ∈ s ∨ x = k) := by
    intro x hx
    constructor
    · intro h
      rcases List.mem_or_eq_of_mem_set h with h | h
      · exact .inl h
      · exact .inr h
    · intro hor
      by_cases hxk : x = k
      · subst hxk; exact List.mem_of_getElem? (List.getElem?_set_self hjl)
      · rcases hor with hm | hm
        · obtain ⟨i, hi'⟩ := List.mem_iff_getElem?.1 hm
          refine List.mem_of_getElem? (i := i) ?_
          rw [List.getElem?_set_ne]
          · exact hi'
          · rintro rfl
            unfold Stop at hstop
            rw [hi'] at hstop
            simp only [Option.some.injEq] at hstop
            omega
        · exact absurd hm hxk
  have htaken : ∀ {k' : Int} {i : Nat}, k' ≠ k ∨ i ≠ j → Taken s k' i → Taken (s.set j k) k' i := by
    rintro k' i hor ⟨x, hx, h1, h2⟩
    by_cases hij : i = j
    · subst hij
      exact ⟨k, List.getElem?_set_self hjl, by omega, by rcases hor with h | h; exact fun e => h e.symm; exact absurd rfl h⟩
    · exact ⟨x, by rw [List.getElem?_set_ne (by omega)]; exact hx, h1, h2⟩
  refine ⟨⟨by simpa using hi.len, ?_, ?_⟩, hmem⟩
  · intro x hx
    rcases List.mem_or_eq_of_mem_set hx with hx | hx
    · exact hi.ge x hx
    · omega
  · intro j' k' hj' hk'
    by_cases hjj : j' = j
    · subst hjj
      rw [List.getElem?_set_self hjl] at hj'
      cases hj'
      refine ⟨n, hn, rfl, fun i hi' => htaken (.inr ?_) (htk i hi')⟩
      intro heq
      have := pos_inj k (by omega) hn heq
      omega
    · rw [List.getElem?_set_ne (by omega)] at hj'
      obtain ⟨n', hn', e, t⟩ := hi.path j' k' hj' hk'
      refine ⟨n', hn', e, fun i hi' => htaken ?_ (t i hi')⟩
      by_cases hkk : k' = k
      · right
        subst hkk
        intro heq
        have hin := pos_inj k' (by omega) hn (heq.trans hj)
        subst hin
        obtain ⟨x, hx, h1, h2⟩ := t i hi'
        unfold Stop at hstop
        rw [← hj] at hx
        rw [hx] at hstop
        simp only [Option.some.injEq] at hstop
        omega
      · exact .inl hkk

/-- If every slot is taken by another key the table has no free slot and no two equal keys. -/
theorem Inv.full {p : Nat} {s : List Int} (hi : Inv h p s) {k : Int} (hf : ∀ i, i < 2 ^ p → Taken s k (pos h (2 ^ p) k i)) :
    (∀ x ∈ s, 0 ≤ x) ∧ s.Nodup := by
  have hne : ∀ (j : Nat) (x : Int), s[j]? = some x → x ≠ -1 := by
    intro j x hx
    have hj := (List.getElem?_eq_some_iff.1 hx).1
    rw [hi.len] at hj
    obtain ⟨n, hn, rfl⟩ := pos_surj (h := h) k hj
    obtain ⟨y, hy, h1, _⟩ := hf n hn
    rw [hx] at hy; cases hy; exact h1
  constructor
  · intro x hx
    obtain ⟨j, hj⟩ := List.mem_iff_getElem?.1 hx
    have := hne j x hj
    have := hi.ge x hx
    omega
  · rw [List.nodup_iff_getElem?_ne_getElem?]
    intro i j hij hj heq
    have hg := List.getElem?_eq_getElem hj
    rw [hg] at heq
    have := hi.uniq heq hg (hne j _ hg)
    omega

/-- A table with room: the insertion finds a slot. -/
theorem insertCore_room {p : Nat} {k : Int} {s : List Int} (hh : ∀ k : Int, 0 ≤ k → ∀ m, 0 < m → h k m < m) (hk : 0 ≤ k)
    (hi : Inv h p s) {l : List Int} (hsub : ∀ x ∈ s, x ≠ -1 → x ∈ l) (hl : l.length < 2 ^ p) :
    ∃ j s', insertCore h k (2 ^ p) s = .ok (j, s') ∧ j < 2 ^ p ∧ Inv h p s' ∧
      ∀ x : Int, x ≠ -1 → (x ∈ s' ↔ x ∈ s ∨ x = k) := by
  rcases insertCore_ok hh hk hi.len with ⟨n, hn, hst, htk, e⟩ | ⟨hf, _⟩
  · obtain ⟨h1, h2⟩ := hi.insert hk hn hst htk
    exact ⟨_, _, e, pos_lt (Nat.two_pow_pos p) k n, h1, h2⟩
  · exfalso
    obtain ⟨h1, h2⟩ := hi.full hf
    have := (h2.subperm (fun x hx => hsub x hx (by have := h1 x hx; omega))).length_le
    rw [hi.len] at this
    omega

theorem expand_ok {p : Nat} {s : List Int} (hh : ∀ k : Int, 0 ≤ k → ∀ m, 0 < m → h k m < m) (hs : s.length = 2 ^ p)
    (hge : ∀ x ∈ s, 0 ≤ x) :
    ∃ s', expand h (2 ^ (p + 1)) { m := 2 ^ p, s := s } = .ok { m := 2 ^ (p + 1), s := s' } ∧ Inv h (p + 1) s' ∧
      ∀ x : Int, x ≠ -1 → (x ∈ s' ↔ x ∈ s) := by
  have hpp : 2 ^ p < 2 ^ (p + 1) := by rw [Nat.pow_succ]; have := Nat.two_pow_pos p; omega
  obtain ⟨t, ht, hI, hm⟩ := loop_inv (n := 2 ^ p) (s := List.replicate (2 ^ (p + 1)) (-1 : Int))
    (f := fun i s' => do
      let k ← rd s i
      let r ← insertCore h k (2 ^ (p + 1)) s'
      check (decide (r.1 < 2 ^ (p + 1)))
      .ok r.2)
    (fun i t => Inv h (p + 1) t ∧ ∀ x : Int, x ≠ -1 → (x ∈ t ↔ x ∈ s.take i))
    ⟨inv_empty h (p + 1), by intro x hx; simp; exact hx⟩
    (by
      rintro i t hi ⟨hI, hm⟩
      have hil : i < s.length := by omega
      have hg := List.getElem?_eq_getElem hil
      obtain ⟨j, s', e, hj, hI', hm'⟩ := insertCore_room hh (hge _ (List.getElem_mem hil)) hI (l := s.take i)
        (fun x hx hne => (hm x hne).1 hx) (by rw [List.length_take]; omega)
      refine ⟨s', ?_, hI', ?_⟩
      · rw [rd_of_getElem? hg, bind_ok, e, bind_ok, check_ok (by simpa using hj), bind_ok]
      · intro x hx
        rw [hm' x hx, hm x hx, List.take_add_one, hg, List.mem_append]
        simp)
  refine ⟨t, ?_, hI, ?_⟩
  · unfold expand
    rw [check_ok (by simpa using hpp), bind_ok]
    simp only
    rw [ht, bind_ok]
  · rw [← hs, List.take_length] at hm
    exact hm

theorem insert_ok {p : Nat} {s : List Int} {k : Int} (hh : ∀ k : Int, 0 ≤ k → ∀ m, 0 < m → h k m < m) (hk : 0 ≤ k)
    (hi : Inv h p s) :
    ∃ p' s', insert h k { m := 2 ^ p, s := s } = .ok (k, { m := 2 ^ p', s := s' }) ∧ p ≤ p' ∧ Inv h p' s' ∧
      ∀ x : Int, x ≠ -1 → (x ∈ s' ↔ x ∈ s ∨ x = k) := by
  unfold insert
  rw [check_ok (by simpa using hk), bind_ok]
  simp only
  rw [check_ok (isPow2_two_pow p), bind_ok]
  rcases insertCore_ok hh hk hi.len with ⟨n, hn, hst, htk, e⟩ | ⟨hf, e⟩
  · obtain ⟨h1, h2⟩ := hi.insert hk hn hst htk
    refine ⟨p, _, ?_, Nat.le_refl _, h1, h2⟩
    have := pos_lt (h := h) (Nat.two_pow_pos p) k n
    rw [e, bind_ok, if_neg (by simp only; omega)]
  · obtain ⟨h1, h2⟩ := hi.full hf
    obtain ⟨s1, e1, hI1, hm1⟩ := expand_ok hh hi.len h1
    obtain ⟨j, s2, e2, hj, hI2, hm2⟩ := insertCore_room (k := k) hh hk hI1 (l := s) (fun x hx hne => (hm1 x hne).1 hx)
      (by rw [hi.len, Nat.pow_succ]; have := Nat.two_pow_pos p; omega)
    refine ⟨p + 1, s2, ?_, by omega, hI2, fun x hx => by rw [hm2 x hx, hm1 x hx]⟩
    rw [e, bind_ok, if_pos rfl, show 2 ^ p <<< 1 = 2 ^ (p + 1) by rw [Nat.shiftLeft_eq, ← Nat.pow_add], e1, bind_ok]
    simp only
    rw [e2, bind_ok, check_ok (by simpa using hj), bind_ok]

/-- The keys stored in the table. -/
def keys (s : List Int) : List Int := s.filter (· ≠ -1)

theorem Inv.keys_nodup {p : Nat} {s : List Int} (hi : Inv h p s) : (keys s).Nodup := by
  have key : ∀ l : List Int, (∀ (j j' : Nat) (k : Int), l[j]? = some k → l[j']? = some k → k ≠ -1 → j = j') → (keys l).Nodup := by
    intro l
    induction l with
    | nil => intro _; simp [keys]
    | cons x l ih =>
      intro hl
      have h1 := ih (fun j j' k a b c => by
        have := hl (j + 1) (j' + 1) k (by simpa using a) (by simpa using b) c; omega)
      unfold keys at h1 ⊢
      rw [List.filter_cons]
      split
      · rename_i hx
        rw [List.nodup_cons]
        refine ⟨?_, h1⟩
        intro hm
        rw [List.mem_filter] at hm
        obtain ⟨i, hi⟩ := List.mem_iff_getElem?.1 hm.1
        have := hl 0 (i + 1) x (by simp) (by simpa using hi) (by simpa using hx)
        omega
      · exact h1
  exact key s (fun j j' k a b c => hi.uniq a b c)

theorem insertAll_ok {ks : List Int} (hh : ∀ k : Int, 0 ≤ k → ∀ m, 0 < m → h k m < m) (hk : ∀ k ∈ ks, 0 ≤ k) {p : Nat}
    {s : List Int} (hi : Inv h p s) :
    ∃ p' s', insertAll h ks { m := 2 ^ p, s := s } = .ok (ks, { m := 2 ^ p', s := s' }) ∧ p ≤ p' ∧ Inv h p' s' ∧
      ∀ x : Int, x ≠ -1 → (x ∈ s' ↔ x ∈ s ∨ x ∈ ks) := by
  induction ks generalizing p s with
  | nil => exact ⟨p, s, rfl, Nat.le_refl _, hi, by intro x _; simp⟩
  | cons k ks ih =>
    obtain ⟨p1, s1, e1, hp1, hI1, hm1⟩ := insert_ok hh (hk k (List.mem_cons_self ..)) hi
    obtain ⟨p2, s2, e2, hp2, hI2, hm2⟩ := ih (fun k hk' => hk k (List.mem_cons_of_mem _ hk')) hI1
    refine ⟨p2, s2, ?_, by omega, hI2, ?_⟩
    · unfold insertAll
      rw [e1, bind_ok]
      simp only
      rw [e2, bind_ok]
    · intro x hx
      rw [hm2 x hx, hm1 x hx, List.mem_cons]
      constructor
      · rintro ((h | h) | h)
        · exact .inl h
        · exact .inr (.inl h)
        · exact .inr (.inr h)
      · rintro (h | h | h)
        · exact .inl (.inl h)
        · exact .inl (.inr h)
        · exact .inr h

theorem countElms_ok {m : Nat} {s : List Int} (hs : s.length = m) : countElms { m := m, s := s } = .ok (keys s).length := by
  unfold countElms
  obtain ⟨t, ht, hP⟩ := loop_inv (n := m) (s := (0 : Nat))
    (f := fun i n => do
      let x ← rd s i
      .ok (n + if x ≠ -1 then 1 else 0))
    (fun i n => n = (keys (s.take i)).length) rfl
    (by
      intro i n hi hn
      have hg := List.getElem?_eq_getElem (show i < s.length by omega)
      refine ⟨_, by rw [rd_of_getElem? hg, bind_ok], ?_⟩
      rw [List.take_add_one, hg, hn]
      simp only [keys, List.filter_append, List.length_append, Option.toList_some, List.filter_cons, List.filter_nil]
      by_cases hx : s[i] = -1 <;> simp [hx])
  rw [← hs, List.take_length] at hP
  subst hP
  simpa [hs] using ht

/-! ### Rounding up to a power of two -/

theorem smear_step {n m i : Nat} (hm : ∀ j, m.testBit j = true ↔ ∃ d, d < i ∧ n.testBit (j + d) = true) :
    ∀ j, (m ||| (m >>> i)).testBit j = true ↔ ∃ d, d < 2 * i ∧ n.testBit (j + d) = true := by
  intro j
  rw [Nat.testBit_or, Nat.testBit_shiftRight, Bool.or_eq_true, hm j, hm (i + j)]
  constructor
  · rintro (⟨d, hd, h⟩ | ⟨d, hd, h⟩)
    · exact ⟨d, by omega, h⟩
    · exact ⟨i + d, by omega, by rw [← h]; congr 1; omega⟩
  · rintro ⟨d, hd, h⟩
    by_cases hdi : d < i
    · exact .inl ⟨d, hdi, h⟩
    · exact .inr ⟨d - i, by omega, by rw [← h]; congr 1; omega⟩

theorem smear_testBit (n j : Nat) : (smear n).testBit j = true ↔ ∃ d, d < 64 ∧ n.testBit (j + d) = true := by
  have h0 : ∀ j, n.testBit j = true ↔ ∃ d, d < 1 ∧ n.testBit (j + d) = true := by
    intro j
    constructor
    · intro h; exact ⟨0, by omega, h⟩
    · rintro ⟨d, hd, h⟩
      obtain rfl : d = 0 := by omega
      exact h
  have h1 := smear_step h0
  have h2 := smear_step h1
  have h3 := smear_step h2
  have h4 := smear_step h3
  have h5 := smear_step h4
  have h6 := smear_step h5
  exact h6 j

theorem smear_eq {n t : Nat} (h1 : 2 ^ t ≤ n) (h2 : n < 2 ^ (t + 1)) (ht : t < 64) : smear n = 2 ^ (t + 1) - 1 := by
  apply Nat.eq_of_testBit_eq
  intro j
  rw [Nat.testBit_two_pow_sub_one, Bool.eq_iff_iff, smear_testBit, decide_eq_true_iff]
  have htop : n.testBit t = true := by
    rw [Nat.testBit_eq_decide_div_mod_eq]
    have : n / 2 ^ t = 1 := by
      rw [Nat.div_eq_iff (Nat.two_pow_pos t)]
      rw [Nat.pow_succ] at h2; omega
    simp [this]
  constructor
  · rintro ⟨d, hd, h⟩
    by_contra hc
    have := Nat.testBit_lt_two_pow (x := n) (i := j + d) (Nat.lt_of_lt_of_le h2 (Nat.pow_le_pow_right (by omega) (by omega)))
    rw [this] at h; cases h
  · intro hj
    exact ⟨t - j, by omega, by rw [← htop]; congr 1; omega⟩

theorem isPow2_iff {m : Nat} (hm : 0 < m) (h : isPow2 m = true) : ∃ p, m = 2 ^ p := by
  -- the top bit of `m` is its only bit
  obtain ⟨t, h1, h2⟩ : ∃ t, 2 ^ t ≤ m ∧ m < 2 ^ (t + 1) := ⟨Nat.log2 m, Nat.log2_self_le (by omega), Nat.lt_log2_self⟩
  by_cases heq : m = 2 ^ t
  · exact ⟨t, heq⟩
  · exfalso
    have hlt : 2 ^ t ≤ m - 1 := by omega
    have htop : ∀ n, 2 ^ t ≤ n → n < 2 ^ (t + 1) → n.testBit t = true := by
      intro n h1 h2
      rw [Nat.testBit_eq_decide_div_mod_eq]
      have : n / 2 ^ t = 1 := by
        rw [Nat.div_eq_iff (Nat.two_pow_pos t)]
        rw [Nat.pow_succ] at h2; omega
      simp [this]
    have ha := htop m h1 h2
    have hb := htop (m - 1) hlt (by omega)
    simp only [isPow2, beq_iff_eq] at h
    have := Nat.testBit_and m (m - 1) t
    rw [h, ha, hb] at this
    simp at this

/-- `hash_set_size` returns the smallest power of two that is at least `m`. -/
theorem hashSetSize_ok {m : Nat} (hm : m ≤ 2 ^ 63) : ∃ p, hashSetSize m = 2 ^ p ∧ m ≤ 2 ^ p ∧ (0 < p → 2 ^ (p - 1) < m) := by
  unfold hashSetSize
  by_cases h0 : m = 0
  · exact ⟨0, by simp [h0], by simp [h0], by omega⟩
  · rw [if_neg h0]
    by_cases hp : isPow2 m = true
    · rw [if_pos hp]
      obtain ⟨p, rfl⟩ := isPow2_iff (by omega) hp
      exact ⟨p, rfl, Nat.le_refl _, fun h => Nat.pow_lt_pow_right (by omega) (by omega)⟩
    · rw [if_neg hp]
      have hm1 : m ≠ 1 := by rintro rfl; exact hp rfl
      obtain ⟨t, h1, h2⟩ : ∃ t, 2 ^ t ≤ m - 1 ∧ m - 1 < 2 ^ (t + 1) :=
        ⟨Nat.log2 (m - 1), Nat.log2_self_le (by omega), Nat.lt_log2_self⟩
      have ht : t < 64 := by
        by_contra hc
        have := Nat.pow_le_pow_right (n := 2) (by omega) (show 64 ≤ t by omega)
        omega
      refine ⟨t + 1, ?_, by omega, fun _ => by simp only [Nat.add_sub_cancel]; omega⟩
      rw [smear_eq h1 h2 ht]
      have := Nat.two_pow_pos (t + 1)
      omega

end Opm.HashSet
