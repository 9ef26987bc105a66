import Mathlib.Algebra.BigOperators.Group.Finset.Basic
import Mathlib.Algebra.BigOperators.Ring.Finset
import Mathlib.Algebra.Field.Basic
import Mathlib.Tactic.Ring
import Verif.Proofs.Hybsys
import Verif.Model.Mimetic
/-!
# Mimetic inner products: loops over matrices
-/

namespace Opm.Mimetic
open Opm

variable {K : Type} [Field K] [DecidableEq K]

theorem rdK {l : List K} {i : Nat} (h : i < l.length) : rd l i = .ok (l.getD i 0) := rd_of_getElem? (by simp [h])

theorem getD_setK {l : List K} {i j : Nat} {v : K} (h : i < l.length) : (l.set i v).getD j 0 = if j = i then v else l.getD j 0 := by
  simp only [List.getD_eq_getElem?_getD, List.getElem?_set]
  by_cases e : i = j
  · subst e; simp [h]
  · rw [if_neg e, if_neg (Ne.symm e)]

theorem pos_inj {i j i' j' ld : Nat} (hi : i < ld) (hi' : i' < ld) (h : i + j * ld = i' + j' * ld) : i = i' ∧ j = j' := by
  have h1 : i = i' := by
    have := congrArg (· % ld) h
    simpa [Nat.add_mul_mod_self_right, Nat.mod_eq_of_lt hi, Nat.mod_eq_of_lt hi'] using this
  subst h1
  refine ⟨rfl, ?_⟩
  have : j * ld = j' * ld := by omega
  exact Nat.eq_of_mul_eq_mul_right (by omega) this

/-- Position `k` is in the region. -/
def InReg (m : Nat) (a b : Nat → Nat) (ld o k : Nat) : Prop := ∃ i j, j < m ∧ a j ≤ i ∧ i < b j ∧ k = o + (i + j * ld)

/-- The loop over a region writes the values `v`, if every value is found from the other positions and its own old value. -/
theorem region_ok {m : Nat} {a b : Nat → Nat} {ld o : Nat} {g : Nat → Nat → List K → M K} {X : List K} (v : Nat → Nat → K) (hab : ∀ j, j < m → a j ≤ b j) (hb : ∀ j, j < m → b j ≤ ld)
    (hl : ∀ i j, j < m → i < b j → o + (i + j * ld) < X.length)
    (hg : ∀ i j Y, j < m → a j ≤ i → i < b j → Y.length = X.length → (∀ k, (¬InReg m a b ld o k ∨ k = o + (i + j * ld)) → Y.getD k 0 = X.getD k 0) → g i j Y = .ok (v i j)) :
    ∃ Y, region m a b ld o g X = .ok Y ∧ Y.length = X.length ∧ (∀ i j, j < m → a j ≤ i → i < b j → Y.getD (o + (i + j * ld)) 0 = v i j) ∧
      ∀ k, ¬InReg m a b ld o k → Y.getD k 0 = X.getD k 0 := by
  let P : Nat → Nat → List K → Prop := fun j i Y => Y.length = X.length ∧
    (∀ i' j', j' < m → a j' ≤ i' → i' < b j' → (j' < j ∨ (j' = j ∧ i' < i)) → Y.getD (o + (i' + j' * ld)) 0 = v i' j') ∧
    ∀ k, (∀ i' j', j' < m → a j' ≤ i' → i' < b j' → (j' < j ∨ (j' = j ∧ i' < i)) → k ≠ o + (i' + j' * ld)) → Y.getD k 0 = X.getD k 0
  obtain ⟨Y, e, h1, h2, h3⟩ := loop_inv (n := m) (s := X) (f := fun j X => forRange (a j) (b j) (fun i X => do
      let v ← g i j X
      wr X (o + (i + j * ld)) v) X) (fun j Y => P j 0 Y)
    ⟨rfl, fun i' j' _ _ _ h => absurd h (by omega), fun k _ => rfl⟩ (by
    intro j Y hj hP
    obtain ⟨Z, e, h1, h2, h3⟩ := forRange_inv (f := fun i X => do
      let v ← g i j X
      wr X (o + (i + j * ld)) v) (hab j hj) (fun i Y => P j i Y)
      ⟨hP.1, fun i' j' q1 q2 q3 h => hP.2.1 i' j' q1 q2 q3 (by
        rcases h with h | ⟨rfl, h⟩
        · exact Or.inl h
        · omega), fun k h => hP.2.2 k (fun i' j' q1 q2 q3 q4 => h i' j' q1 q2 q3 (by omega))⟩ (by
      intro i Y hi hi' ⟨h1, h2, h3⟩
      have hlt := hl i j hj hi'
      have hbj := hb j hj
      rw [hg i j Y hj hi hi' h1 (by
        rintro k (hk | rfl)
        · exact h3 k (fun i' j' q1 q2 q3 _ e => hk ⟨i', j', q1, q2, q3, e⟩)
        · refine h3 _ (fun i' j' q1 q2 q3 q4 e => ?_)
          have := pos_inj (i := i) (j := j) (i' := i') (j' := j') (ld := ld) (by omega) (by have := hb j' q1; omega) (by omega)
          omega), bind_ok, wr_ok (by rw [h1]; exact hlt)]
      refine ⟨_, rfl, by simp [h1], ?_, ?_⟩
      · intro i' j' q1 q2 q3 q4
        rw [getD_setK (by rw [h1]; exact hlt)]
        split
        · next e =>
          obtain ⟨rfl, rfl⟩ := pos_inj (i := i') (j := j') (i' := i) (j' := j) (ld := ld) (by have := hb j' q1; omega) (by omega) (by omega)
          rfl
        · next e =>
          refine h2 i' j' q1 q2 q3 ?_
          rcases q4 with h | ⟨rfl, h⟩
          · exact Or.inl h
          · refine Or.inr ⟨rfl, ?_⟩
            rcases Nat.lt_or_ge i' i with h' | h'
            · exact h'
            · exact absurd (by rw [show i' = i by omega]) e
      · intro k hk
        rw [getD_setK (by rw [h1]; exact hlt), if_neg (hk i j hj hi hi' (Or.inr ⟨rfl, by omega⟩))]
        exact h3 k (fun i' j' q1 q2 q3 q4 => hk i' j' q1 q2 q3 (by omega)))
    refine ⟨Z, e, h1, fun i' j' q1 q2 q3 q4 => h2 i' j' q1 q2 q3 ?_, fun k hk => h3 k (fun i' j' q1 q2 q3 q4 => hk i' j' q1 q2 q3 (by omega))⟩
    rcases q4 with h | ⟨rfl, h⟩
    · rcases Nat.lt_or_ge j' j with h' | h'
      · exact Or.inl h'
      · obtain rfl : j' = j := by omega
        exact Or.inr ⟨rfl, q3⟩
    · omega)
  exact ⟨Y, e, h1, fun i j q1 q2 q3 => h2 i j q1 q2 q3 (Or.inl q1), fun k hk => h3 k (fun i' j' q1 q2 q3 _ e => hk ⟨i', j', q1, q2, q3, e⟩)⟩

theorem loop_accK {n : Nat} {f : Nat → K → M K} {s : K} (v : Nat → K) (hf : ∀ i t, i < n → f i t = .ok (t + v i)) : loop n f s = .ok (s + ∑ i ∈ Finset.range n, v i) := by
  induction n with
  | zero => simp
  | succ n ih =>
    rw [loop_succ, ih (fun i t hi => hf i t (by omega)), bind_ok, hf n _ (by omega), Finset.sum_range_succ]
    congr 1
    ring

theorem sdot_ok {n : Nat} {x y : List K} {ox ix oy iy : Nat} (hx : ∀ k, k < n → ox + k * ix < x.length) (hy : ∀ k, k < n → oy + k * iy < y.length) :
    sdot n x ox ix y oy iy = .ok (∑ k ∈ Finset.range n, x.getD (ox + k * ix) 0 * y.getD (oy + k * iy) 0) := by
  unfold sdot
  rw [loop_accK (fun k => x.getD (ox + k * ix) 0 * y.getD (oy + k * iy) 0) (fun k t hk => by rw [rdK (hx k hk), bind_ok, rdK (hy k hk), bind_ok]), zero_add]

theorem trace_ok {d oK : Nat} {perm : List K} (h : oK + d * d ≤ perm.length) : trace d oK perm = .ok (∑ i ∈ Finset.range d, perm.getD (oK + (i + i * d)) 0) := by
  unfold trace
  rw [loop_accK (fun i => perm.getD (oK + (i + i * d)) 0) (fun i t hi => by
    have : i + i * d < d * d := by
      have := Nat.mul_le_mul_right d (show i + 1 ≤ d from hi)
      rw [Nat.add_mul] at this
      omega
    rw [rdK (by omega), bind_ok]), zero_add]

theorem divK_ok {a b : K} (h : b ≠ 0) : divK a b = .ok (a / b) := by
  unfold divK
  rw [if_neg h]

/-- Everything outside of a block is as before. -/
def Keep (X Y : List K) (o n : Nat) : Prop := Y.length = X.length ∧ ∀ k, (k < o ∨ o + n ≤ k) → Y.getD k 0 = X.getD k 0

theorem Keep.trans {X Y Z : List K} {o n : Nat} (h : Keep X Y o n) (h' : Keep Y Z o n) : Keep X Z o n :=
  ⟨h'.1.trans h.1, fun k hk => (h'.2 k hk).trans (h.2 k hk)⟩

theorem lt_block {i j n : Nat} (hi : i < n) (hj : j < n) : i + j * n < n * n := by
  have := Nat.mul_le_mul_right n (show j + 1 ≤ n from hj)
  rw [Nat.add_mul] at this
  omega

theorem lt_block' {i j n d : Nat} (hi : i < n) (hj : j < d) : i + j * n < n * d := by
  have := Nat.mul_le_mul_right n (show j + 1 ≤ d from hj)
  rw [Nat.add_mul, Nat.mul_comm d n] at this
  omega

theorem keep_of {m : Nat} {a b : Nat → Nat} {n o : Nat} {X Y : List K} (hm : m ≤ n) (hb : ∀ j, j < m → b j ≤ n) (hl : Y.length = X.length)
    (h : ∀ k, ¬InReg m a b n o k → Y.getD k 0 = X.getD k 0) : Keep X Y o (n * n) := by
  refine ⟨hl, fun k hk => h k ?_⟩
  rintro ⟨i, j, q1, q2, q3, rfl⟩
  have := lt_block (i := i) (j := j) (n := n) (by have := hb j q1; omega) (by omega)
  omega

/-- Step 1. -/
theorem unitMatrix_ok {n o : Nat} {X : List K} (h : o + n * n ≤ X.length) :
    ∃ Y, unitMatrix n n o X = .ok Y ∧ Keep X Y o (n * n) ∧ ∀ i j, i < n → j < n → Y.getD (o + (i + j * n)) 0 = if i = j then 1 else 0 := by
  unfold unitMatrix
  obtain ⟨Y, e, h1, h2⟩ := loop_inv (n := n) (s := X) (f := fun j X => do
    let X ← loop n (fun i X => wr X (o + (i + j * n)) 0) X
    wr X (o + j * (n + 1)) 1) (fun m Y => Keep X Y o (n * n) ∧ ∀ i j, i < n → j < m → Y.getD (o + (i + j * n)) 0 = if i = j then 1 else 0)
    ⟨⟨rfl, fun _ _ => rfl⟩, fun i j _ hj => absurd hj (Nat.not_lt_zero _)⟩ (by
    rintro j Y hj ⟨h1, h2⟩
    obtain ⟨Z, e, g1, g2⟩ := loop_inv (n := n) (s := Y) (f := fun i X => wr X (o + (i + j * n)) 0)
      (fun m Z => Z.length = Y.length ∧ ∀ k, Z.getD k 0 = if o + j * n ≤ k ∧ k < o + j * n + m then 0 else Y.getD k 0)
      ⟨rfl, fun k => by rw [if_neg (by omega)]⟩ (by
      rintro i Z hi ⟨g1, g2⟩
      have hlt := lt_block hi hj
      have hl : o + (i + j * n) < Z.length := by rw [g1, h1.1]; omega
      refine ⟨_, wr_ok hl, by simp [g1], fun k => ?_⟩
      rw [getD_setK hl, g2 k]
      by_cases e : k = o + (i + j * n)
      · rw [if_pos e, if_pos (by omega)]
      · rw [if_neg e]
        by_cases e' : o + j * n ≤ k ∧ k < o + j * n + i
        · rw [if_pos e', if_pos (by omega)]
        · rw [if_neg e', if_neg (by omega)])
    have hjj := lt_block hj hj
    have hl : o + j * (n + 1) < Z.length := by rw [g1, h1.1, Nat.mul_succ]; omega
    rw [e, bind_ok, wr_ok hl]
    refine ⟨_, rfl, ⟨by simp [g1, h1.1], fun k hk => ?_⟩, fun i j' hi hj' => ?_⟩
    · have hjn := Nat.mul_le_mul_right n (show j + 1 ≤ n from hj)
      rw [Nat.add_mul] at hjn
      rw [getD_setK hl, if_neg (by rw [Nat.mul_succ]; omega), g2, if_neg (by omega), h1.2 k hk]
    · rw [getD_setK hl, g2, Nat.mul_succ]
      by_cases e1 : j' = j
      · subst e1
        by_cases e2 : i = j'
        · rw [if_pos (by omega), if_pos e2]
        · rw [if_neg (by omega), if_pos (by omega), if_neg e2]
      · have hlt : j' < j := by omega
        have hjn := Nat.mul_le_mul_right n (show j' + 1 ≤ j from hlt)
        rw [Nat.add_mul] at hjn
        rw [if_neg (by omega), if_neg (by omega), h2 i j' hi hlt])
  exact ⟨Y, e, h1, h2⟩

/-- `mim_ip_span_nullspace` with `nf = nconn`. -/
theorem spanNullspace_ok {qr : Nat → Nat → List K → List K} {n d o : Nat} {C A X : List K} (hX : o + n * n ≤ X.length) (hC : n * d ≤ C.length) (hA : n ≤ A.length)
    (hq : ∀ C' : List K, C'.length = C.length → (∀ i j, i < n → j < d → C'.getD (i + j * n) 0 = C.getD (i + j * n) 0 * A.getD i 0) → (qr n d C').length = C.length) :
    ∃ C' Q Y, C'.length = C.length ∧ (∀ i j, i < n → j < d → C'.getD (i + j * n) 0 = C.getD (i + j * n) 0 * A.getD i 0) ∧ Q = qr n d C' ∧
      spanNullspace qr n n d o C A X = .ok (Q, Y) ∧ Keep X Y o (n * n) ∧
      ∀ i j, i < n → j < n → Y.getD (o + (i + j * n)) 0 =
        ((if i = j then 1 else 0) - ∑ k ∈ Finset.range d, Q.getD (i + k * n) 0 * Q.getD (j + k * n) 0) * (A.getD i 0 * A.getD j 0) := by
  unfold spanNullspace
  obtain ⟨X1, e1, k1, v1⟩ := unitMatrix_ok hX
  have hpos : ∀ {i j : Nat}, i < n → j < d → i + j * n < C.length := fun hi hj => lt_of_lt_of_le (lt_block' hi hj) hC
  obtain ⟨C', e2, l2, v2, -⟩ := region_ok (m := d) (a := fun _ => 0) (b := fun _ => n) (ld := n) (o := 0) (X := C) (g := fun i j C => do
    let x ← rd C (0 + (i + j * n))
    let a ← rd A i
    .ok (x * a)) (fun i j => C.getD (0 + (i + j * n)) 0 * A.getD i 0) (fun _ _ => Nat.zero_le _) (fun _ _ => le_refl _) (fun i j hj hi => by
      have := hpos hi hj
      omega) (by
    intro i j Y hj _ hi hl hY
    have := hpos hi hj
    rw [rdK (by omega), bind_ok, rdK (by omega), bind_ok, hY _ (Or.inr rfl)])
  have v2' : ∀ i j, i < n → j < d → C'.getD (i + j * n) 0 = C.getD (i + j * n) 0 * A.getD i 0 := by
    intro i j hi hj
    have := v2 i j hj (Nat.zero_le _) hi
    rwa [Nat.zero_add] at this
  have lQ : (qr n d C').length = C.length := hq C' l2 v2'
  set Q := qr n d C' with hQ
  have hQpos : ∀ {i j : Nat}, i < n → j < d → i + j * n < Q.length := fun hi hj => by rw [lQ]; exact hpos hi hj
  obtain ⟨X3, e3, l3, v3, w3⟩ := region_ok (m := n) (a := fun _ => 0) (b := fun j => j + 1) (ld := n) (o := o) (X := X1) (g := fun i j X => do
    let s ← sdot d Q i n Q j n
    let x ← rd X (o + (i + j * n))
    .ok (-1 * s + 1 * x)) (fun i j => -1 * (∑ k ∈ Finset.range d, Q.getD (i + k * n) 0 * Q.getD (j + k * n) 0) + 1 * X1.getD (o + (i + j * n)) 0)
    (fun _ _ => Nat.zero_le _) (fun _ h => h) (fun i j hj hi => by
      have := lt_block (i := i) (j := j) (n := n) (by omega) hj
      rw [k1.1]; omega) (by
    intro i j Y hj _ hi hl hY
    have hin : i < n := by omega
    have := lt_block hin hj
    rw [sdot_ok (fun k hk => hQpos hin hk) (fun k hk => hQpos hj hk), bind_ok, rdK (by rw [hl, k1.1]; omega), bind_ok, hY _ (Or.inr rfl)])
  obtain ⟨X4, e4, l4, v4, w4⟩ := region_ok (m := n) (a := fun _ => 0) (b := fun j => j + 1) (ld := n) (o := o) (X := X3) (g := fun i j X => do
    let x ← rd X (o + (i + j * n))
    let a ← rd A i
    let b ← rd A j
    .ok (x * (a * b))) (fun i j => X3.getD (o + (i + j * n)) 0 * (A.getD i 0 * A.getD j 0))
    (fun _ _ => Nat.zero_le _) (fun _ h => h) (fun i j hj hi => by
      have := lt_block (i := i) (j := j) (n := n) (by omega) hj
      rw [l3, k1.1]; omega) (by
    intro i j Y hj _ hi hl hY
    have hin : i < n := by omega
    have := lt_block hin hj
    rw [rdK (by rw [hl, l3, k1.1]; omega), bind_ok, rdK (by omega), bind_ok, rdK (by omega), bind_ok, hY _ (Or.inr rfl)])
  obtain ⟨X5, e5, l5, v5, w5⟩ := region_ok (m := n) (a := fun j => j + 1) (b := fun _ => n) (ld := n) (o := o) (X := X4) (g := fun i j X => rd X (o + (j + i * n)))
    (fun i j => X4.getD (o + (j + i * n)) 0)
    (fun _ h => h) (fun _ _ => le_refl _) (fun i j hj hi => by
      have := lt_block hi hj
      rw [l4, l3, k1.1]; omega) (by
    intro i j Y hj hij hi hl hY
    have := lt_block hj hi
    rw [rdK (by rw [hl, l4, l3, k1.1]; omega), hY _ (Or.inl (by
      rintro ⟨i', j', q1, q2, q3, e⟩
      have := pos_inj (i := j) (j := i) (i' := i') (j' := j') hj q3 (by omega)
      have q2' : j' + 1 ≤ i' := q2
      omega))])
  have key : ∀ i j, i ≤ j → j < n → X4.getD (o + (i + j * n)) 0 =
      ((if i = j then 1 else 0) - ∑ k ∈ Finset.range d, Q.getD (i + k * n) 0 * Q.getD (j + k * n) 0) * (A.getD i 0 * A.getD j 0) := by
    intro i j hij hj
    rw [v4 i j hj (Nat.zero_le _) (by omega), v3 i j hj (Nat.zero_le _) (by omega), v1 i j (by omega) hj]
    ring
  refine ⟨C', Q, X5, l2, v2', hQ, ?_, ?_, fun i j hi hj => ?_⟩
  · have e2' : scaleRows n d A C = .ok C' := e2
    have e3' : syrk n n d o Q X1 = .ok X3 := e3
    have e4' : scaleUpper n n o A X3 = .ok X4 := e4
    have e5' : mirror n n o X4 = .ok X5 := e5
    rw [e1, bind_ok, e2', bind_ok]
    simp only
    rw [← hQ, e3', bind_ok, e4', bind_ok, e5', bind_ok]
  · exact ((k1.trans (keep_of (le_refl _) (fun j h => h) l3 w3)).trans (keep_of (le_refl _) (fun j h => h) l4 w4)).trans (keep_of (le_refl _) (fun j _ => le_refl _) l5 w5)
  · rcases Nat.lt_or_ge j i with h | h
    · rw [v5 i j hj h hi, key j i (by omega) hi, if_neg (by omega), if_neg (by omega), mul_comm (A.getD j 0)]
      congr 2
      exact Finset.sum_congr rfl (fun k _ => mul_comm _ _)
    · rw [w5 _ (by
        rintro ⟨i', j', q1, q2, q3, e⟩
        have := pos_inj (i := i) (j := j) (i' := i') (j' := j') hi q3 (by omega)
        have q2' : j' + 1 ≤ i' := q2
        omega), key i j h hj]

/-- `mim_ip_linpress_exact` with `nf = nconn`. -/
theorem linpressExact_ok {n d o oK lwork : Nat} {vol : K} {perm N X work : List K} (hX : o + n * n ≤ X.length) (hN : n * d ≤ N.length) (hP : oK + d * d ≤ perm.length)
    (hw : n * d ≤ lwork) (hwl : lwork = work.length) (hv : vol ≠ 0) (hd : (d : K) ≠ 0) :
    ∃ Y w', linpressExact n n d vol perm oK N X o work lwork = .ok (Y, w') ∧ w'.length = work.length ∧ Keep X Y o (n * n) ∧
      ∀ i j, i < n → j < n → Y.getD (o + (i + j * n)) 0 =
        1 / vol * (∑ k ∈ Finset.range d, (∑ l ∈ Finset.range d, N.getD (i + l * n) 0 * perm.getD (oK + (l + k * d)) 0) * N.getD (j + k * n) 0) +
          6 * (∑ k ∈ Finset.range d, perm.getD (oK + (k + k * d)) 0) / ((d : K) * vol) * X.getD (o + (i + j * n)) 0 := by
  unfold linpressExact
  have hpos : ∀ {i j : Nat}, i < n → j < d → i + j * n < N.length := fun hi hj => lt_of_lt_of_le (lt_block' hi hj) hN
  have hwpos : ∀ {i j : Nat}, i < n → j < d → i + j * n < work.length := fun hi hj => lt_of_lt_of_le (lt_block' hi hj) (by omega)
  obtain ⟨w', e1, l1, v1, -⟩ := region_ok (m := d) (a := fun _ => 0) (b := fun _ => n) (ld := n) (o := 0) (X := work)
    (g := fun i j _ => sdot d N i n perm (oK + j * d) 1) (fun i j => ∑ l ∈ Finset.range d, N.getD (i + l * n) 0 * perm.getD (oK + j * d + l * 1) 0)
    (fun _ _ => Nat.zero_le _) (fun _ _ => le_refl _) (fun i j hj hi => by
      have := hwpos hi hj
      omega) (by
    intro i j Y hj _ hi hl hY
    rw [sdot_ok (fun k hk => hpos hi hk) (fun k hk => by
      have := lt_block hk hj
      omega)])
  have v1' : ∀ i j, i < n → j < d → w'.getD (i + j * n) 0 = ∑ l ∈ Finset.range d, N.getD (i + l * n) 0 * perm.getD (oK + (l + j * d)) 0 := by
    intro i j hi hj
    have := v1 i j hj (Nat.zero_le _) hi
    rw [Nat.zero_add] at this
    rw [this]
    refine Finset.sum_congr rfl (fun l _ => ?_)
    rw [Nat.mul_one, Nat.add_assoc, Nat.add_comm (j * d) l]
  set a1 : K := 1 / vol
  set t : K := ∑ k ∈ Finset.range d, perm.getD (oK + (k + k * d)) 0
  set a2 : K := 6 * t / ((d : K) * vol)
  obtain ⟨Y, e2, l2, v2, w2⟩ := region_ok (m := n) (a := fun _ => 0) (b := fun _ => n) (ld := n) (o := o) (X := X) (g := fun i j X => do
    let s ← sdot d w' i n N j n
    let x ← rd X (o + (i + j * n))
    .ok (a1 * s + a2 * x)) (fun i j => a1 * (∑ k ∈ Finset.range d, w'.getD (i + k * n) 0 * N.getD (j + k * n) 0) + a2 * X.getD (o + (i + j * n)) 0)
    (fun _ _ => Nat.zero_le _) (fun _ _ => le_refl _) (fun i j hj hi => by
      have := lt_block hi hj
      omega) (by
    intro i j Y hj _ hi hl hY
    have := lt_block hi hj
    rw [sdot_ok (fun k hk => by rw [l1]; exact hwpos hi hk) (fun k hk => hpos hj hk), bind_ok, rdK (by omega), bind_ok, hY _ (Or.inr rfl)])
  refine ⟨Y, w', ?_, l1, keep_of (le_refl _) (fun j _ => le_refl _) l2 w2, fun i j hi hj => ?_⟩
  · rw [check_ok (by rw [decide_eq_true_eq, Nat.mul_comm]; exact hw), bind_ok, trace_ok hP, bind_ok, e1, bind_ok, divK_ok hv, bind_ok, divK_ok (mul_ne_zero hd hv), bind_ok, e2, bind_ok]
  · rw [v2 i j hj (Nat.zero_le _) hi]
    congr 2
    exact Finset.sum_congr rfl (fun k hk => by rw [v1' i k hi (Finset.mem_range.1 hk)])

end Opm.Mimetic
