import Verif.Proofs.PvtPoint
import Verif.Props.Interp
import Mathlib.Tactic.FieldSimp
/-! # Proofs about live oil: construction of the tables -/

namespace Opm.Pvt
open Opm Opm.Interp

/-! ### Reading the records -/

theorem flat_get : ∀ (l : List (Rat × Rat × Rat)) (j : Nat) (q : Rat × Rat × Rat), l[j]? = some q →
    (l.flatMap (fun q => [q.1, q.2.1, q.2.2]))[3 * j]? = some q.1 ∧ (l.flatMap (fun q => [q.1, q.2.1, q.2.2]))[3 * j + 1]? = some q.2.1 ∧ (l.flatMap (fun q => [q.1, q.2.1, q.2.2]))[3 * j + 2]? = some q.2.2
  | [], j, q, h => by simp at h
  | a :: l, 0, q, h => by
    simp at h
    subst h
    simp
  | a :: l, j + 1, q, h => by
    have := flat_get l j q (by simpa using h)
    rw [show 3 * (j + 1) = 3 * j + 3 by ring]
    simpa [List.flatMap_cons] using this

theorem flat_length (l : List (Rat × Rat × Rat)) : (l.flatMap (fun q => [q.1, q.2.1, q.2.2])).length = 3 * l.length := by
  induction l with
  | nil => rfl
  | cons a l ih => rw [List.flatMap_cons, List.length_append, ih]; simp; omega

theorem tsize_encode (r : Rat × List (Rat × Rat × Rat)) : tsize (encode r) = r.2.length := by
  unfold tsize encode
  rw [List.length_cons, flat_length]
  omega

theorem encode_get (r : Rat × List (Rat × Rat × Rat)) {j : Nat} {q : Rat × Rat × Rat} (h : r.2[j]? = some q) :
    (encode r)[3 * j + 1]? = some q.1 ∧ (encode r)[3 * j + 2]? = some q.2.1 ∧ (encode r)[3 * j + 3]? = some q.2.2 := by
  have := flat_get r.2 j q h
  unfold encode
  simpa using this

theorem loop_eq {α : Type} {n : Nat} {d : α} {g : Nat → M α} {v : List α} (hv : v.length = n) (hg : ∀ i x, v[i]? = some x → g i = .ok x) :
    loop n (fun i l => do let q ← g i; wr l i q) (List.replicate n d) = .ok v := by
  have : ∀ k, k ≤ n → loop k (fun i l => do let q ← g i; wr l i q) (List.replicate n d) = .ok (v.take k ++ List.replicate (n - k) d) := by
    intro k
    induction k with
    | zero => intro _; rw [loop_zero]; simp
    | succ k ih =>
      intro hk
      have hx := List.getElem?_eq_getElem (l := v) (i := k) (by omega)
      have hlen : (v.take k).length = k := by rw [List.length_take]; omega
      rw [loop_succ, ih (by omega), bind_ok, hg k _ hx, bind_ok, wr_ok (by simp; omega)]
      congr 1
      rw [List.set_append_right _ _ (by omega), hlen, Nat.sub_self, List.take_add_one, hx]
      have : n - k = (n - (k + 1)) + 1 := by omega
      rw [this, List.replicate_succ, List.set_cons_zero, List.append_assoc]
      rfl
  have h := this n (le_refl _)
  rw [h]
  simp [← hv]

theorem column_ok (r : Rat × List (Rat × Rat × Rat)) (k : Nat) (g : Rat → M Rat) (sel : Rat × Rat × Rat → Rat) (out : Rat × Rat × Rat → Rat)
    (hsel : ∀ (j : Nat) q, r.2[j]? = some q → (encode r)[3 * j + k]? = some (sel q)) (hg : ∀ q ∈ r.2, g (sel q) = .ok (out q)) : column (encode r) k g = .ok (r.2.map out) := by
  unfold column
  rw [tsize_encode]
  refine Eq.trans ?_ (loop_eq (n := r.2.length) (d := (0 : Rat)) (g := fun j => rd (encode r) (3 * j + k) >>= g) (v := r.2.map out) (by simp) (fun i x hx => ?_))
  · exact loop_congr (fun i s hi => by cases rd (encode r) (3 * i + k) with | error _ => rfl | ok v => rfl)
  · rw [List.getElem?_map] at hx
    cases hq : r.2[i]? with
    | none => rw [hq] at hx; cases hx
    | some q =>
      rw [hq] at hx
      show (rd (encode r) (3 * i + k) >>= g) = _
      rw [rd_of_getElem? (hsel i q hq), bind_ok, hg q (List.mem_of_getElem? hq)]
      exact congrArg Except.ok (Option.some.inj hx)

theorem firsts_ok (t : OilRecords) (k : Nat) (g : Rat → M Rat) (sel out : Rat × List (Rat × Rat × Rat) → Rat) (hsel : ∀ r ∈ t, (encode r)[k]? = some (sel r)) (hg : ∀ r ∈ t, g (sel r) = .ok (out r)) :
    firsts (t.map encode) k g = .ok (t.map out) := by
  unfold firsts
  rw [List.length_map]
  refine Eq.trans ?_ (loop_eq (n := t.length) (d := (0 : Rat)) (g := fun i => rd (t.map encode) i >>= fun r => rd r k >>= g) (v := t.map out) (by simp) (fun i x hx => ?_))
  · exact loop_congr (fun i s hi => by
      cases rd (t.map encode) i with
      | error _ => rfl
      | ok v =>
        show (rd v k >>= fun v => g v >>= fun w => wr s i w) = ((rd v k >>= g) >>= fun w => wr s i w)
        cases rd v k with
        | error _ => rfl
        | ok v => rfl)
  · rw [List.getElem?_map] at hx
    cases hq : t[i]? with
    | none => rw [hq] at hx; cases hx
    | some r =>
      rw [hq] at hx
      have hm := List.mem_of_getElem? hq
      show (rd (t.map encode) i >>= fun r => rd r k >>= g) = _
      rw [rd_of_getElem? (show (t.map encode)[i]? = some (encode r) by rw [List.getElem?_map, hq]; rfl), bind_ok, rd_of_getElem? (hsel r hm), bind_ok, hg r hm]
      exact congrArg Except.ok (Option.some.inj hx)

/-- The undersaturated table of a record. -/
def underOf (inv : Rat → Rat) (r : Rat × List (Rat × Rat × Rat)) : List (List Rat) := [r.2.map (·.1), r.2.map (fun q => inv q.2.1), r.2.map (fun q => q.2.2)]

theorem unders_ok (t : OilRecords) (g : Rat → M Rat) (inv : Rat → Rat) (hg : ∀ r ∈ t, ∀ q ∈ r.2, g q.2.1 = .ok (inv q.2.1)) : unders (t.map encode) g = .ok (t.map (underOf inv)) := by
  unfold unders
  rw [List.length_map]
  refine Eq.trans ?_ (loop_eq (n := t.length) (d := ([] : List (List Rat))) (g := fun i => do
      let r ← rd (t.map encode) i
      let a ← column r 1 .ok
      let b ← column r 2 g
      let c ← column r 3 .ok
      .ok [a, b, c]) (v := t.map (underOf inv)) (by simp) (fun i x hx => ?_))
  · exact loop_congr (fun i s hi => by
      cases rd (t.map encode) i with
      | error _ => rfl
      | ok r =>
        rw [bind_ok, bind_ok]
        cases column r 1 .ok with
        | error _ => rfl
        | ok a =>
          rw [bind_ok, bind_ok]
          cases column r 2 g with
          | error _ => rfl
          | ok b =>
            rw [bind_ok, bind_ok]
            cases column r 3 .ok with
            | error _ => rfl
            | ok c => rfl)
  · rw [List.getElem?_map] at hx
    cases hq : t[i]? with
    | none => rw [hq] at hx; cases hx
    | some r =>
      rw [hq] at hx
      have hm := List.mem_of_getElem? hq
      rw [rd_of_getElem? (show (t.map encode)[i]? = some (encode r) by rw [List.getElem?_map, hq]; rfl), bind_ok,
        column_ok r 1 .ok (·.1) (·.1) (fun j q h => (encode_get r h).1) (fun _ _ => rfl), bind_ok,
        column_ok r 2 g (fun q => q.2.1) (fun q => inv q.2.1) (fun j q h => (encode_get r h).2.1) (hg r hm), bind_ok,
        column_ok r 3 .ok (fun q => q.2.2) (fun q => q.2.2) (fun j q h => (encode_get r h).2.2) (fun _ _ => rfl), bind_ok]
      exact congrArg Except.ok (Option.some.inj hx)

/-! ### Good tables -/

/-- What else is claimed of tables: whether columns are monotone, and where pressures come from. -/
structure Kind where
  mon : Prop
  src : Rat → Prop

/-- An undersaturated table with columns of equal, positive length and pressures which increase by more than one; pressures come from `Mon.src`; if `Mon.mon`, the other columns never decrease. -/
structure GoodTab (Mon : Kind) (t : List (List Rat)) (P B V : List Rat) : Prop where
  eq : t = [P, B, V]
  lenB : B.length = P.length
  lenV : V.length = P.length
  ne : 1 ≤ P.length
  inc : P.Pairwise (fun a b => a + 1 < b)
  from' : ∀ x ∈ P, Mon.src x
  mon : Mon.mon → B.Pairwise (· ≤ ·) ∧ V.Pairwise (· ≤ ·)

theorem spaced_lt {P : List Rat} (h : P.Pairwise (fun a b => a + 1 < b)) {i j : Nat} {a b : Rat} (hij : i < j) (ha : P[i]? = some a) (hb : P[j]? = some b) : a + 1 < b := by
  obtain ⟨a1, rfl⟩ := List.getElem?_eq_some_iff.1 ha
  obtain ⟨b1, rfl⟩ := List.getElem?_eq_some_iff.1 hb
  exact List.pairwise_iff_getElem.1 h i j a1 b1 hij

theorem mono_le {P : List Rat} (h : P.Pairwise (· ≤ ·)) {i j : Nat} {a b : Rat} (hij : i ≤ j) (ha : P[i]? = some a) (hb : P[j]? = some b) : a ≤ b := by
  obtain ⟨a1, rfl⟩ := List.getElem?_eq_some_iff.1 ha
  obtain ⟨b1, rfl⟩ := List.getElem?_eq_some_iff.1 hb
  rcases Nat.lt_or_eq_of_le hij with h1 | h1
  · exact List.pairwise_iff_getElem.1 h i j a1 b1 h1
  · subst h1; exact le_refl _

theorem upperBound_le (l : List Rat) (x : Rat) : upperBound l x ≤ l.length := by
  unfold upperBound
  exact (List.takeWhile_prefix _).length_le

/-- Elements before the upper bound are not greater. -/
theorem before_ub : ∀ {l : List Rat} {x : Rat} {i : Nat} {a : Rat}, i < upperBound l x → l[i]? = some a → a ≤ x
  | [], x, i, a, h, ha => by simp at ha
  | b :: l, x, i, a, h, ha => by
    unfold upperBound at h
    rw [List.takeWhile_cons] at h
    split at h
    · rename_i hb
      cases i with
      | zero => simp at ha; subst ha; simpa using hb
      | succ i => exact before_ub (l := l) (i := i) (by unfold upperBound; simpa using h) (by simpa using ha)
    · simp at h

/-- The element at the upper bound is greater. -/
theorem at_ub : ∀ {l : List Rat} {x a : Rat}, l[upperBound l x]? = some a → x < a
  | [], x, a, h => by simp at h
  | b :: l, x, a, h => by
    unfold upperBound at h
    rw [List.takeWhile_cons] at h
    split at h
    · exact at_ub (l := l) (by unfold upperBound; simpa using h)
    · rename_i hb
      simp at h
      subst h
      simpa using hb

theorem after_ub {l : List Rat} (h : l.Pairwise (fun a b => a + 1 < b)) {x a : Rat} {i : Nat} (hi : upperBound l x ≤ i) (ha : l[i]? = some a) : x < a := by
  have hl := (List.getElem?_eq_some_iff.1 ha).1
  have hu := List.getElem?_eq_getElem (l := l) (i := upperBound l x) (by omega)
  have := at_ub hu
  rcases Nat.lt_or_eq_of_le hi with h1 | h1
  · have := spaced_lt h h1 hu ha
    linarith
  · exact at_ub (by rw [h1]; exact ha)

/-- The number of pressures beyond `x + 1`. -/
def beyond (P : List Rat) (x : Rat) : Nat := P.length - upperBound P (x + 1)

theorem beyond_anti {P : List Rat} {x y : Rat} (hxy : x ≤ y) : beyond P y ≤ beyond P x := by
  unfold beyond
  have : upperBound P (x + 1) ≤ upperBound P (y + 1) := by
    by_contra hn
    have hl := upperBound_le P (x + 1)
    have hu := List.getElem?_eq_getElem (l := P) (i := upperBound P (y + 1)) (by omega)
    have h1 := at_ub hu
    have h2 := before_ub (show upperBound P (y + 1) < upperBound P (x + 1) by omega) hu
    linarith
  omega

theorem beyond_lt {P : List Rat} (h : P.Pairwise (fun a b => a + 1 < b)) {x y p : Rat} {k : Nat} (hk : upperBound P (x + 1) ≤ k) (hp : P[k]? = some p) (hy : p ≤ y) : beyond P y < beyond P x := by
  have hl := (List.getElem?_eq_some_iff.1 hp).1
  unfold beyond
  have : k < upperBound P (y + 1) := by
    by_contra hn
    have := after_ub h (x := y + 1) (i := k) (by omega) hp
    linarith
  have := upperBound_le P (y + 1)
  omega

/-- What is found in a neighbouring table. -/
theorem neighbour_ok {Mon : Kind} {t : List (List Rat)} {P B V : List Rat} (g : GoodTab Mon t P B V) (h2 : 2 ≤ P.length) (x : Rat) :
    ∃ k p sb sv, neighbour t x = .ok (decide (k + 1 = P.length), p, sb, sv) ∧ 1 ≤ k ∧ P[k]? = some p ∧
      (k + 1 < P.length → upperBound P (x + 1) ≤ k) ∧ ((∀ l, P[P.length - 1]? = some l → x + 1 < l) → upperBound P (x + 1) ≤ k) ∧ (Mon.mon → 0 ≤ sb ∧ 0 ≤ sv) := by
  have hub := upperBound_le P (x + 1)
  obtain rfl := g.eq
  obtain ⟨k, hk, h1, hkl, c1, c2⟩ : ∃ k, position P x = .ok k ∧ 1 ≤ k ∧ k < P.length ∧ (k + 1 < P.length → upperBound P (x + 1) ≤ k) ∧ ((∀ l, P[P.length - 1]? = some l → x + 1 < l) → upperBound P (x + 1) ≤ k) := by
    unfold position
    simp only
    by_cases e1 : upperBound P (x + 1) = P.length
    · rw [if_pos e1, if_neg (by omega)]
      refine ⟨_, rfl, by omega, by omega, by omega, fun hl => ?_⟩
      have hu := List.getElem?_eq_getElem (l := P) (i := P.length - 1) (by omega)
      have a1 := before_ub (show P.length - 1 < upperBound P (x + 1) by omega) hu
      have a2 := hl _ hu
      linarith
    · rw [if_neg e1]
      by_cases e2 : upperBound P (x + 1) = 0
      · rw [if_pos e2]
        exact ⟨1, rfl, by omega, by omega, by omega, fun _ => by omega⟩
      · rw [if_neg e2]
        exact ⟨_, rfl, by omega, by omega, fun _ => le_refl _, fun _ => le_refl _⟩
  have hp := List.getElem?_eq_getElem (l := P) (i := k) hkl
  have hq := List.getElem?_eq_getElem (l := P) (i := k - 1) (by omega)
  have hb1 := List.getElem?_eq_getElem (l := B) (i := k) (by rw [g.lenB]; omega)
  have hb0 := List.getElem?_eq_getElem (l := B) (i := k - 1) (by rw [g.lenB]; omega)
  have hv1 := List.getElem?_eq_getElem (l := V) (i := k) (by rw [g.lenV]; omega)
  have hv0 := List.getElem?_eq_getElem (l := V) (i := k - 1) (by rw [g.lenV]; omega)
  have hd := spaced_lt g.inc (show k - 1 < k by omega) hq hp
  have hd0 : P[k] - P[k - 1] ≠ 0 := by linarith
  refine ⟨k, P[k], (B[k]'(by rw [g.lenB]; omega) - B[k - 1]'(by rw [g.lenB]; omega)) / (P[k] - P[k - 1]), (V[k]'(by rw [g.lenV]; omega) - V[k - 1]'(by rw [g.lenV]; omega)) / (P[k] - P[k - 1]), ?_, h1, hp, c1, c2, fun hm => ?_⟩
  · unfold neighbour
    rw [show rd [P, B, V] 0 = .ok P from rfl, bind_ok, hk, bind_ok]
    dsimp only
    rw [rd_of_getElem? hp, bind_ok, show ((k : Int) - 1) = ((k - 1 : Nat) : Int) by omega, rdI_natCast, rd_of_getElem? hq, bind_ok]
    unfold at2
    rw [show rd [P, B, V] 1 = .ok B from rfl, bind_ok, rd_of_getElem? hb1, bind_ok, bind_ok, rd_of_getElem? hb0, bind_ok, fdiv_ok hd0, bind_ok,
      show rd [P, B, V] 2 = .ok V from rfl, bind_ok, rd_of_getElem? hv1, bind_ok, bind_ok, rd_of_getElem? hv0, bind_ok, fdiv_ok hd0, bind_ok]
  · obtain ⟨m1, m2⟩ := g.mon hm
    exact ⟨div_nonneg (by have := mono_le m1 (show k - 1 ≤ k by omega) hb0 hb1; linarith) (by linarith), div_nonneg (by have := mono_le m2 (show k - 1 ≤ k by omega) hv0 hv1; linarith) (by linarith)⟩

end Opm.Pvt
