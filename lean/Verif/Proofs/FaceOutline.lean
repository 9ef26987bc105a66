import Verif.Proofs.FindConnections
import Mathlib.Data.List.Rotate
import Mathlib.Data.List.Zip
import Mathlib.Algebra.Order.Field.Basic
import Mathlib.Algebra.Order.Field.Rat
import Mathlib.Tactic.Linarith
import Mathlib.Tactic.FieldSimp
/-!
# The corners of a face between two stacks, and when there is one
-/

namespace Opm.Cpg
open Opm UniquePoints

section
variable {A B : Stack} {n : Nat}

/-- Four pairs of lines, the first above the second somewhere. -/
structure Above (A B : Stack) (i j : Nat) : Prop where
  aa : A.p i < A.p (i + 1) ∨ A.q i < A.q (i + 1)
  ab : A.p i < B.p (j + 1) ∨ A.q i < B.q (j + 1)
  ba : B.p j < A.p (i + 1) ∨ B.q j < A.q (i + 1)
  bb : B.p j < B.p (j + 1) ∨ B.q j < B.q (j + 1)

/-- The order of the lines of layers `i` and `j`. -/
structure Ordered (A B : Stack) (i j : Nat) : Prop where
  ap : A.p i ≤ A.p (i + 1)
  aq : A.q i ≤ A.q (i + 1)
  bp : B.p j ≤ B.p (j + 1)
  bq : B.q j ≤ B.q (j + 1)

theorem ordered (hA : A.Ok n) (hB : B.Ok n) {i j : Nat} (hi : i < n - 1) (hj : j < n - 1) : Ordered A B i j :=
  ⟨hA.monoP _ (by omega), hA.monoQ _ (by omega), hB.monoP _ (by omega), hB.monoQ _ (by omega)⟩

theorem faceX_iff {i j : Nat} : faceX (A.layer i) (B.layer j) = true ↔
    max (A.p i) (B.p j) < min (A.p (i + 1)) (B.p (j + 1)) ∨ max (A.q i) (B.q j) < min (A.q (i + 1)) (B.q (j + 1)) ∨ Cross A B i j ∨ Cross A B (i + 1) (j + 1) := by
  unfold faceX
  rw [Bool.or_eq_true, Bool.or_eq_true, Bool.or_eq_true, decide_eq_true_eq, decide_eq_true_eq]
  simp only [Stack.layer]
  rw [lineX_iff, lineX_iff, or_assoc, or_assoc]

theorem above_iff {i j : Nat} (h : Ordered A B i j) : (¬ A.Empty i ∧ ¬ B.Empty j ∧ faceX (A.layer i) (B.layer j) = true) ↔ Above A B i j := by
  obtain ⟨h1, h2, h3, h4⟩ := h
  rw [faceX_iff]
  unfold Stack.Empty Cross
  constructor
  · rintro ⟨e1, e2, e3⟩
    exact ⟨by omega, by omega, by omega, by omega⟩
  · rintro ⟨e1, e2, e3, e4⟩
    omega

/-! ### Corners -/

def seg (x : Int) : List Int := if x ≠ -1 then [x] else []

theorem filter_seg (l : List Int) : l.filter (fun x => decide (x ≠ -1)) = l.flatMap seg := by
  induction l with
  | nil => rfl
  | cons x l ih =>
    rw [List.filter_cons, List.flatMap_cons, ih]
    unfold seg
    by_cases h : x = -1 <;> simp [h]

theorem xnum_ne {base i j : Nat} : xnum A B n base i j ≠ -1 ↔ Cross A B i j := by
  unfold xnum
  split
  · rename_i h; simp only [h, iff_true]; omega
  · rename_i h; simp [h]

theorem seg_ne {x : Int} (h : x ≠ -1) : seg x = [x] := by unfold seg; rw [if_pos h]

theorem seg_xnum {base i j : Nat} : seg (xnum A B n base i j) = if Cross A B i j then [xnum A B n base i j] else [] := by
  unfold seg
  simp only [xnum_ne]

theorem pillarMask_eq {i j : Nat} : pillarMask (A.layer i) (B.layer j) =
    { m0 := min (A.p (i + 1)) (B.p (j + 1)), m1 := -1, m2 := min (A.q (i + 1)) (B.q (j + 1)), m3 := -1, m4 := if min (A.q (i + 1)) (B.q (j + 1)) = max (A.q i) (B.q j) then -1 else max (A.q i) (B.q j), m5 := -1, m6 := if min (A.p (i + 1)) (B.p (j + 1)) = max (A.p i) (B.p j) then -1 else max (A.p i) (B.p j), m7 := -1 } := by
  have hmax : ∀ x y : Int, (if x > y then x else y) = max x y := by intro x y; split <;> omega
  have hmin : ∀ x y : Int, (if x > y then y else x) = min x y := by intro x y; split <;> omega
  unfold pillarMask
  simp only [hmax, hmin]
  rfl

theorem maskX1_eq {i j : Nat} {x : Int} {m : Mask} : maskX1 (A.layer i) (B.layer j) x m =
    if x ≠ -1 then if B.p (j + 1) < A.p i then { m with m0 := -1, m6 := -1, m7 := x } else { m with m2 := -1, m4 := -1, m3 := x } else m := rfl

theorem maskX2_eq {i j : Nat} {x : Int} {m : Mask} : maskX2 (A.layer i) (B.layer j) x m =
    if x ≠ -1 then if A.p (i + 1) < B.p j then { m with m0 := -1, m6 := -1, m7 := x } else { m with m2 := -1, m4 := -1, m3 := x } else m := rfl

/-- The masks, with the conditions named: the crossings `x1`, `x2` are on the left (`l1`, `l2`) or on the right (`r1`, `r2`). -/
theorem mask_core {P P' Q Q' x0 x1 x2 x3 : Int} {l1 l2 r1 r2 : Prop} [Decidable l1] [Decidable l2] [Decidable r1] [Decidable r2] (h1 : x1 ≠ -1 ↔ l1 ∨ r1)
    (h2 : x2 ≠ -1 ↔ l2 ∨ r2) (hP : P ≠ -1) (hQ : Q ≠ -1) (hP' : P' ≠ -1) (hQ' : Q' ≠ -1) (hl : l1 ∨ l2 ↔ P' < P) (hr : r1 ∨ r2 ↔ Q' < Q) (hl12 : ¬ (l1 ∧ l2))
    (hr12 : ¬ (r1 ∧ r2)) (hlr1 : ¬ (l1 ∧ r1)) (hlr2 : ¬ (l2 ∧ r2)) (m m' : Mask)
    (e1 : m = if x1 ≠ -1 then if l1 then ⟨-1, x3, Q', -1, if Q' = Q then -1 else Q, x0, -1, x1⟩ else ⟨P', x3, -1, x1, -1, x0, if P' = P then -1 else P, -1⟩
      else ⟨P', x3, Q', -1, if Q' = Q then -1 else Q, x0, if P' = P then -1 else P, -1⟩)
    (e2 : m' = if x2 ≠ -1 then if l2 then { m with m0 := -1, m6 := -1, m7 := x2 } else { m with m2 := -1, m4 := -1, m3 := x2 } else m) :
    seg m'.m7 ++ seg m'.m6 ++ seg m'.m5 ++ seg m'.m4 ++ seg m'.m3 ++ seg m'.m2 ++ seg m'.m1 ++ seg m'.m0 =
      (if l1 then [x1] else if l2 then [x2] else []) ++ (if P < P' then [P] else []) ++ seg x0 ++ (if Q < Q' then [Q] else []) ++
      (if r1 then [x1] else if r2 then [x2] else []) ++ (if Q ≤ Q' then [Q'] else []) ++ seg x3 ++ (if P ≤ P' then [P'] else []) := by
  have hs : seg (-1) = [] := rfl
  have s6 : ¬ P' < P → seg (if P' = P then -1 else P) = if P < P' then [P] else [] := by
    intro hlt
    by_cases h : P' = P
    · rw [if_pos h, if_neg (by omega), hs]
    · rw [if_neg h, if_pos (by omega), seg_ne hP]
  have s4 : ¬ Q' < Q → seg (if Q' = Q then -1 else Q) = if Q < Q' then [Q] else [] := by
    intro hlt
    by_cases h : Q' = Q
    · rw [if_pos h, if_neg (by omega), hs]
    · rw [if_neg h, if_pos (by omega), seg_ne hQ]
  have left : P' < P → (if P < P' then [P] else []) = [] ∧ (if P ≤ P' then [P'] else []) = [] := by
    intro h; rw [if_neg (by omega), if_neg (by omega)]; exact ⟨rfl, rfl⟩
  have right : Q' < Q → (if Q < Q' then [Q] else []) = [] ∧ (if Q ≤ Q' then [Q'] else []) = [] := by
    intro h; rw [if_neg (by omega), if_neg (by omega)]; exact ⟨rfl, rfl⟩
  by_cases a1 : x1 ≠ -1
  · rw [if_pos a1] at e1
    by_cases b1 : l1
    · rw [if_pos b1] at e1
      have c1 : ¬ l2 := fun h => hl12 ⟨b1, h⟩
      have c2 : ¬ r1 := fun h => hlr1 ⟨b1, h⟩
      obtain ⟨z1, z2⟩ := left (hl.1 (Or.inl b1))
      rw [z1, z2, if_pos b1]
      by_cases a2 : x2 ≠ -1
      · have c3 : r2 := (h2.1 a2).resolve_left c1
        obtain ⟨z3, z4⟩ := right (hr.1 (Or.inr c3))
        rw [if_pos a2, if_neg c1] at e2
        subst e1; subst e2
        rw [z3, z4, if_neg c2, if_pos c3]
        simp [hs, seg_ne a1, seg_ne a2]
      · have c3 : ¬ r2 := fun h => a2 (h2.2 (Or.inr h))
        rw [if_neg a2] at e2
        subst e1; subst e2
        have hQQ : ¬ Q' < Q := fun h => by rcases hr.2 h with h | h <;> contradiction
        rw [if_neg c2, if_neg c3, if_pos (show Q ≤ Q' by omega)]
        simp [hs, seg_ne a1, seg_ne hQ', s4 hQQ]
    · rw [if_neg b1] at e1
      have c2 : r1 := (h1.1 a1).resolve_left b1
      have c3 : ¬ r2 := fun h => hr12 ⟨c2, h⟩
      obtain ⟨z3, z4⟩ := right (hr.1 (Or.inl c2))
      rw [z3, z4, if_neg b1, if_pos c2]
      by_cases a2 : x2 ≠ -1
      · have c1 : l2 := (h2.1 a2).resolve_right c3
        obtain ⟨z1, z2⟩ := left (hl.1 (Or.inr c1))
        rw [if_pos a2, if_pos c1] at e2
        subst e1; subst e2
        rw [z1, z2, if_pos c1]
        simp [hs, seg_ne a1, seg_ne a2]
      · have c1 : ¬ l2 := fun h => a2 (h2.2 (Or.inl h))
        rw [if_neg a2] at e2
        subst e1; subst e2
        have hPP : ¬ P' < P := fun h => by rcases hl.2 h with h | h <;> contradiction
        rw [if_neg c1, if_pos (show P ≤ P' by omega)]
        simp [hs, seg_ne a1, seg_ne hP', s6 hPP]
  · rw [if_neg a1] at e1
    have b1 : ¬ l1 := fun h => a1 (h1.2 (Or.inl h))
    have b2 : ¬ r1 := fun h => a1 (h1.2 (Or.inr h))
    rw [if_neg b1, if_neg b2]
    by_cases a2 : x2 ≠ -1
    · rw [if_pos a2] at e2
      by_cases c1 : l2
      · have c2 : ¬ r2 := fun h => hlr2 ⟨c1, h⟩
        obtain ⟨z1, z2⟩ := left (hl.1 (Or.inr c1))
        rw [if_pos c1] at e2
        subst e1; subst e2
        have hQQ : ¬ Q' < Q := fun h => by rcases hr.2 h with h | h <;> contradiction
        rw [z1, z2, if_pos c1, if_neg c2, if_pos (show Q ≤ Q' by omega)]
        simp [hs, seg_ne a2, seg_ne hQ', s4 hQQ]
      · have c2 : r2 := (h2.1 a2).resolve_left c1
        obtain ⟨z1, z2⟩ := right (hr.1 (Or.inr c2))
        rw [if_neg c1] at e2
        subst e1; subst e2
        have hPP : ¬ P' < P := fun h => by rcases hl.2 h with h | h <;> contradiction
        rw [z1, z2, if_pos c2, if_neg c1, if_pos (show P ≤ P' by omega)]
        simp [hs, seg_ne a2, seg_ne hP', s6 hPP]
    · rw [if_neg a2] at e2
      have c1 : ¬ l2 := fun h => a2 (h2.2 (Or.inl h))
      have c2 : ¬ r2 := fun h => a2 (h2.2 (Or.inr h))
      subst e1; subst e2
      have hPP : ¬ P' < P := fun h => by rcases hl.2 h with h | h <;> contradiction
      have hQQ : ¬ Q' < Q := fun h => by rcases hr.2 h with h | h <;> contradiction
      rw [if_neg c1, if_neg c2, if_pos (show P ≤ P' by omega), if_pos (show Q ≤ Q' by omega)]
      simp [hs, seg_ne hP', seg_ne hQ', s6 hPP, s4 hQQ]

theorem faceTopology_outline {base i j : Nat} (h : Ordered A B i j) (ha : Above A B i j)
    (hvA : A.p i ≠ -1 ∧ A.q i ≠ -1) (hvA' : A.p (i + 1) ≠ -1 ∧ A.q (i + 1) ≠ -1) (hvB : B.p j ≠ -1 ∧ B.q j ≠ -1) (hvB' : B.p (j + 1) ≠ -1 ∧ B.q (j + 1) ≠ -1) :
    faceTopology (A.layer i) (B.layer j) (xnum A B n base i j) (xnum A B n base i (j + 1)) (xnum A B n base (i + 1) j) (xnum A B n base (i + 1) (j + 1)) =
      outline A B (xnum A B n base) i j := by
  obtain ⟨o1, o2, o3, o4⟩ := h
  obtain ⟨a1, a2, a3, a4⟩ := ha
  have c1 : Cross A B i (j + 1) ↔ (B.p (j + 1) < A.p i ∨ B.q (j + 1) < A.q i) := by unfold Cross; omega
  have c2 : Cross A B (i + 1) j ↔ (A.p (i + 1) < B.p j ∨ A.q (i + 1) < B.q j) := by unfold Cross; omega
  unfold faceTopology
  simp only
  rw [filter_seg]
  have := mask_core (P := max (A.p i) (B.p j)) (P' := min (A.p (i + 1)) (B.p (j + 1))) (Q := max (A.q i) (B.q j)) (Q' := min (A.q (i + 1)) (B.q (j + 1)))
    (x0 := xnum A B n base i j) (x1 := xnum A B n base i (j + 1)) (x2 := xnum A B n base (i + 1) j) (x3 := xnum A B n base (i + 1) (j + 1))
    (l1 := B.p (j + 1) < A.p i) (r1 := B.q (j + 1) < A.q i) (l2 := A.p (i + 1) < B.p j) (r2 := A.q (i + 1) < B.q j) (by rw [xnum_ne, c1]) (by rw [xnum_ne, c2])
    (by omega) (by omega) (by omega) (by omega) (by omega) (by omega) (by omega) (by omega) (by omega) (by omega)
    (maskX1 (A.layer i) (B.layer j) (xnum A B n base i (j + 1))
      { pillarMask (A.layer i) (B.layer j) with m1 := xnum A B n base (i + 1) (j + 1), m3 := -1, m5 := xnum A B n base i j, m7 := -1 })
    (maskX2 (A.layer i) (B.layer j) (xnum A B n base (i + 1) j) (maskX1 (A.layer i) (B.layer j) (xnum A B n base i (j + 1))
      { pillarMask (A.layer i) (B.layer j) with m1 := xnum A B n base (i + 1) (j + 1), m3 := -1, m5 := xnum A B n base i j, m7 := -1 }))
    (by rw [maskX1_eq, pillarMask_eq]) maskX2_eq
  simp only [List.flatMap_cons, List.flatMap_nil, List.append_nil]
  rw [seg_xnum, seg_xnum] at this
  unfold outline
  rw [← this]
  simp only [List.append_assoc]

theorem matchNodes_outline {i j : Nat} (h : Ordered A B i j) (ha : ¬ A.Empty i) (hm : matching (A.layer i) (B.layer j) = true) (x : Nat → Nat → Int) :
    (matchNodes (A.layer i)).IsRotated (outline A B x i j) := by
  unfold matching Stack.layer at hm
  simp only [Bool.and_eq_true, decide_eq_true_eq] at hm
  obtain ⟨⟨m1, m2⟩, m3, m4⟩ := hm
  obtain ⟨o1, o2, o3, o4⟩ := h
  have n1 : ¬ Cross A B i j := by unfold Cross; omega
  have n2 : ¬ Cross A B (i + 1) (j + 1) := by unfold Cross; omega
  unfold outline matchNodes
  rw [if_neg n1, if_neg n2, if_neg (show ¬ B.p (j + 1) < A.p i by omega), if_neg (show ¬ A.p (i + 1) < B.p j by omega), if_neg (show ¬ B.q (j + 1) < A.q i by omega),
    if_neg (show ¬ A.q (i + 1) < B.q j by omega), ← m1, ← m2, ← m3, ← m4, max_self, max_self, min_self, min_self, if_pos o1, if_pos o2]
  unfold Stack.Empty at ha
  by_cases hp : A.p i = A.p (i + 1)
  · by_cases hq : A.q i = A.q (i + 1)
    · exact absurd ⟨hp, hq⟩ ha
    · rw [if_pos (show (A.layer i).q' ≠ (A.layer i).q from fun e => hq e.symm), if_neg (show ¬ (A.layer i).p' ≠ (A.layer i).p from fun e => e hp.symm), if_neg (by omega), if_pos (by omega)]
      simp only [Stack.layer, ← hp]
      exact ⟨1, rfl⟩
  · by_cases hq : A.q i = A.q (i + 1)
    · rw [if_neg (show ¬ (A.layer i).q' ≠ (A.layer i).q from fun e => e hq.symm), if_pos (show (A.layer i).p' ≠ (A.layer i).p from fun e => hp e.symm), if_pos (by omega), if_neg (by omega)]
      simp only [Stack.layer, ← hq]
      exact ⟨0, rfl⟩
    · rw [if_pos (show (A.layer i).q' ≠ (A.layer i).q from fun e => hq e.symm), if_pos (show (A.layer i).p' ≠ (A.layer i).p from fun e => hp e.symm), if_pos (by omega), if_pos (by omega)]
      exact ⟨0, rfl⟩

theorem pairNodes_outline (hA : A.Ok n) (hB : B.Ok n) {base i j : Nat} (hi : i < n - 1) (hj : j < n - 1) (h : Makes A B i j) :
    (pairNodes A B n base i j).IsRotated (outline A B (xnum A B n base) i j) := by
  have ho := ordered hA hB hi hj
  unfold pairNodes
  by_cases hm : matching (A.layer i) (B.layer j) = true
  · rw [if_pos hm]
    exact matchNodes_outline ho h.1 hm _
  · rw [if_neg hm, faceTopology_outline ho ((above_iff ho).1 ⟨h.1, h.2.1, h.2.2.1⟩) (hA.valid i (by omega)) (hA.valid (i + 1) (by omega)) (hB.valid j (by omega))
      (hB.valid (j + 1) (by omega))]

theorem length_outline (x : Nat → Nat → Int) (i j : Nat) (h : Ordered A B i j) : (outline A B x i j).length ≤ 6 := by
  obtain ⟨o1, o2, o3, o4⟩ := h
  have one : ∀ (P : Prop) [Decidable P] (y : Int), (if P then [y] else []).length ≤ 1 := by intro P _ y; split <;> simp
  have left : ((if B.p (j + 1) < A.p i then [x i (j + 1)] else if A.p (i + 1) < B.p j then [x (i + 1) j] else []) ++
      (if max (A.p i) (B.p j) < min (A.p (i + 1)) (B.p (j + 1)) then [max (A.p i) (B.p j)] else [])).length +
      (if max (A.p i) (B.p j) ≤ min (A.p (i + 1)) (B.p (j + 1)) then [min (A.p (i + 1)) (B.p (j + 1))] else []).length ≤ 2 := by
    by_cases h1 : B.p (j + 1) < A.p i
    · rw [if_pos h1, if_neg (show ¬ max (A.p i) (B.p j) < min (A.p (i + 1)) (B.p (j + 1)) by omega), if_neg (by omega)]; simp
    · rw [if_neg h1]
      by_cases h2 : A.p (i + 1) < B.p j
      · rw [if_pos h2, if_neg (show ¬ max (A.p i) (B.p j) < min (A.p (i + 1)) (B.p (j + 1)) by omega), if_neg (by omega)]; simp
      · rw [if_neg h2, List.nil_append]
        have e1 := one (max (A.p i) (B.p j) < min (A.p (i + 1)) (B.p (j + 1))) (max (A.p i) (B.p j))
        have e2 := one (max (A.p i) (B.p j) ≤ min (A.p (i + 1)) (B.p (j + 1))) (min (A.p (i + 1)) (B.p (j + 1)))
        omega
  have right : (if max (A.q i) (B.q j) < min (A.q (i + 1)) (B.q (j + 1)) then [max (A.q i) (B.q j)] else []).length +
      (if B.q (j + 1) < A.q i then [x i (j + 1)] else if A.q (i + 1) < B.q j then [x (i + 1) j] else []).length +
      (if max (A.q i) (B.q j) ≤ min (A.q (i + 1)) (B.q (j + 1)) then [min (A.q (i + 1)) (B.q (j + 1))] else []).length ≤ 2 := by
    by_cases h1 : B.q (j + 1) < A.q i
    · rw [if_pos h1, if_neg (show ¬ max (A.q i) (B.q j) < min (A.q (i + 1)) (B.q (j + 1)) by omega), if_neg (show ¬ max (A.q i) (B.q j) ≤ min (A.q (i + 1)) (B.q (j + 1)) by omega)]; simp
    · rw [if_neg h1]
      by_cases h2 : A.q (i + 1) < B.q j
      · rw [if_pos h2, if_neg (show ¬ max (A.q i) (B.q j) < min (A.q (i + 1)) (B.q (j + 1)) by omega), if_neg (show ¬ max (A.q i) (B.q j) ≤ min (A.q (i + 1)) (B.q (j + 1)) by omega)]; simp
      · rw [if_neg h2]
        have e1 := one (max (A.q i) (B.q j) < min (A.q (i + 1)) (B.q (j + 1))) (max (A.q i) (B.q j))
        have e2 := one (max (A.q i) (B.q j) ≤ min (A.q (i + 1)) (B.q (j + 1))) (min (A.q (i + 1)) (B.q (j + 1)))
        simp only [List.length_nil]
        omega
  have e1 := one (Cross A B i j) (x i j)
  have e2 := one (Cross A B (i + 1) (j + 1)) (x (i + 1) (j + 1))
  unfold outline
  simp only [List.length_append] at left ⊢
  omega

/-! ### Overlapping layers -/

section
variable {hp hq : Int → Rat}

theorem mono_lt (h : ∀ x y : Int, x < y → hp x < hp y) {x y : Int} : hp x < hp y ↔ x < y := by
  constructor
  · intro hl
    by_contra hc
    rcases lt_or_eq_of_le (not_lt.1 hc) with h1 | h1
    · have := h _ _ h1; linarith
    · rw [h1] at hl; exact absurd hl (lt_irrefl _)
  · exact h x y

theorem mono_le' (h : ∀ x y : Int, x < y → hp x < hp y) {x y : Int} (hl : x ≤ y) : hp x ≤ hp y := by
  rcases lt_or_eq_of_le hl with h1 | h1
  · exact le_of_lt (h _ _ h1)
  · rw [h1]

/-- Two differences that are positive at the first end are positive near it. -/
theorem near_left {d e : List Rat} : (∀ x ∈ d.zip e, 0 < x.1) → ∃ t : Rat, 0 < t ∧ t < 1 ∧ ∀ x ∈ d.zip e, 0 < (1 - t) * x.1 + t * x.2 := by
  generalize d.zip e = l
  induction l with
  | nil => intro _; exact ⟨1 / 2, by norm_num, by norm_num, by intro x hx; cases hx⟩
  | cons y l ih =>
    intro h
    obtain ⟨t, h0, h1, ht⟩ := ih (fun x hx => h x (List.mem_cons_of_mem _ hx))
    have hy := h y List.mem_cons_self
    -- any smaller `t` also works for `l`
    have small : ∀ s : Rat, 0 < s → s ≤ t → ∀ x ∈ l, 0 < (1 - s) * x.1 + s * x.2 := by
      intro s hs hst x hx
      have e1 := ht x hx
      have e2 := h x (List.mem_cons_of_mem _ hx)
      rcases le_total 0 x.2 with h2 | h2
      · have : 0 < (1 - s) * x.1 := mul_pos (by linarith) e2
        have : 0 ≤ s * x.2 := mul_nonneg (le_of_lt hs) h2
        linarith
      · have e3 : x.2 - x.1 < 0 := by linarith
        have : t * (x.2 - x.1) ≤ s * (x.2 - x.1) := mul_le_mul_of_nonpos_right hst (le_of_lt e3)
        nlinarith
    let M := |y.2| + 1
    have hM : 0 < y.1 + M := by have := abs_nonneg y.2; simp only [M]; linarith
    have hs : 0 < y.1 / (y.1 + M) := div_pos hy hM
    refine ⟨min t (y.1 / (y.1 + M)), lt_min h0 hs, lt_of_le_of_lt (min_le_left _ _) h1, ?_⟩
    intro x hx
    rcases List.mem_cons.1 hx with rfl | hx
    · set s := min t (x.1 / (x.1 + M))
      have hs0 : 0 < s := lt_min h0 hs
      have hsle : s ≤ x.1 / (x.1 + M) := min_le_right _ _
      have h3 : s * (x.1 + M) ≤ x.1 := by
        have := mul_le_mul_of_nonneg_right hsle (le_of_lt hM)
        rwa [div_mul_cancel₀ _ (ne_of_gt hM)] at this
      have h4 : -|x.2| ≤ x.2 := neg_abs_le x.2
      have h5 : s * (-|x.2|) ≤ s * x.2 := mul_le_mul_of_nonneg_left h4 (le_of_lt hs0)
      have h6 : M = |x.2| + 1 := rfl
      rw [h6] at h3
      nlinarith
    · exact small _ (lt_min h0 hs) (min_le_left _ _) x hx

theorem near_right {d e : List Rat} (_hl : d.length = e.length) (h : ∀ x ∈ d.zip e, 0 < x.2) : ∃ t : Rat, 0 < t ∧ t < 1 ∧ ∀ x ∈ d.zip e, 0 < (1 - t) * x.1 + t * x.2 := by
  have hz : e.zip d = (d.zip e).map Prod.swap := by rw [List.zip_swap]
  obtain ⟨t, h0, h1, ht⟩ := near_left (d := e) (e := d) (by
    intro x hx
    rw [hz] at hx
    obtain ⟨y, hy, rfl⟩ := List.mem_map.1 hx
    exact h y hy)
  refine ⟨1 - t, by linarith, by linarith, ?_⟩
  intro x hx
  have := ht x.swap (by rw [hz]; exact List.mem_map_of_mem hx)
  simp only [Prod.fst_swap, Prod.snd_swap] at this
  linarith

/-- Two lines cross where they have the same depth. -/
theorem cross_point {a0 a1 b0 b1 : Rat} (h : (a0 < b0 ∧ b1 < a1) ∨ (b0 < a0 ∧ a1 < b1)) : ∃ t : Rat, 0 < t ∧ t < 1 ∧ (1 - t) * a0 + t * a1 = (1 - t) * b0 + t * b1 := by
  have hd : (b0 - a0) + (a1 - b1) ≠ 0 := by rcases h with h | h <;> intro e <;> linarith [h.1, h.2]
  refine ⟨(b0 - a0) / ((b0 - a0) + (a1 - b1)), ?_, ?_, ?_⟩
  · rcases h with h | h
    · exact div_pos (by linarith [h.1]) (by linarith [h.1, h.2])
    · rw [← neg_div_neg_eq]; exact div_pos (by linarith [h.1]) (by linarith [h.1, h.2])
  · rcases h with h | h
    · rw [div_lt_one (by linarith [h.1, h.2])]; linarith [h.2]
    · rw [← neg_div_neg_eq, div_lt_one (by linarith [h.1, h.2])]; linarith [h.2]
  · field_simp
    ring

/-- If the lower lines are strictly below the upper lines somewhere, the layers overlap. -/
theorem overlap_of {i j : Nat} {t : Rat} (h0 : 0 < t) (h1 : t < 1) (aa : A.depth hp hq i t < A.depth hp hq (i + 1) t) (ab : A.depth hp hq i t < B.depth hp hq (j + 1) t)
    (ba : B.depth hp hq j t < A.depth hp hq (i + 1) t) (bb : B.depth hp hq j t < B.depth hp hq (j + 1) t) : Overlap A B hp hq i j := by
  obtain ⟨z, hz1, hz2⟩ : ∃ z, max (A.depth hp hq i t) (B.depth hp hq j t) < z ∧ z < min (A.depth hp hq (i + 1) t) (B.depth hp hq (j + 1) t) :=
    exists_between (max_lt (lt_min aa ab) (lt_min ba bb))
  rw [max_lt_iff] at hz1
  rw [lt_min_iff] at hz2
  exact ⟨t, z, h0, h1, ⟨hz1.1, hz2.1⟩, ⟨hz1.2, hz2.2⟩⟩

theorem depth_lt {S T : Stack} {i j : Nat} {t : Rat} (h0 : 0 < t) (h1 : t < 1) (hmp : ∀ x y : Int, x < y → hp x < hp y) (hmq : ∀ x y : Int, x < y → hq x < hq y)
    (e1 : S.p i ≤ T.p j) (e2 : S.q i ≤ T.q j) (e3 : S.p i < T.p j ∨ S.q i < T.q j) : S.depth hp hq i t < T.depth hp hq j t := by
  unfold Stack.depth
  have f1 := mono_le' hmp e1
  have f2 := mono_le' hmq e2
  have g0 : 0 < 1 - t := by linarith
  have m1 := mul_le_mul_of_nonneg_left f1 (le_of_lt g0)
  have m2 := mul_le_mul_of_nonneg_left f2 (le_of_lt h0)
  rcases e3 with e | e
  · have := mul_lt_mul_of_pos_left (hmp _ _ e) g0
    linarith
  · have := mul_lt_mul_of_pos_left (hmq _ _ e) h0
    linarith

/-- Layers that are not empty overlap exactly if `faceintersection` says so. -/
theorem overlap_iff {i j : Nat} (ho : Ordered A B i j) (hmp : ∀ x y : Int, x < y → hp x < hp y) (hmq : ∀ x y : Int, x < y → hq x < hq y) :
    Overlap A B hp hq i j ↔ (¬ A.Empty i ∧ ¬ B.Empty j ∧ faceX (A.layer i) (B.layer j) = true) := by
  constructor
  · rintro ⟨t, z, h0, h1, ⟨a1, a2⟩, b1, b2⟩
    rw [above_iff ho]
    have key : ∀ (S T : Stack) (k l : Nat), S.depth hp hq k t < T.depth hp hq l t → S.p k < T.p l ∨ S.q k < T.q l := by
      intro S T k l h
      by_contra hc
      have e1 := mono_le' hmp (show T.p l ≤ S.p k by omega)
      have e2 := mono_le' hmq (show T.q l ≤ S.q k by omega)
      unfold Stack.depth at h
      have m1 := mul_le_mul_of_nonneg_left e1 (show 0 ≤ 1 - t by linarith)
      have m2 := mul_le_mul_of_nonneg_left e2 (le_of_lt h0)
      linarith
    exact ⟨key _ _ _ _ (by linarith), key _ _ _ _ (by linarith), key _ _ _ _ (by linarith), key _ _ _ _ (by linarith)⟩
  · intro h
    have hab := (above_iff ho).1 h
    obtain ⟨hAe, hBe, hF⟩ := h
    obtain ⟨o1, o2, o3, o4⟩ := ho
    rw [faceX_iff] at hF
    rcases hF with hF | hF | hF | hF
    · obtain ⟨t, h0, h1, ht⟩ := near_left (d := [hp (A.p (i + 1)) - hp (A.p i), hp (B.p (j + 1)) - hp (A.p i), hp (A.p (i + 1)) - hp (B.p j), hp (B.p (j + 1)) - hp (B.p j)])
        (e := [hq (A.q (i + 1)) - hq (A.q i), hq (B.q (j + 1)) - hq (A.q i), hq (A.q (i + 1)) - hq (B.q j), hq (B.q (j + 1)) - hq (B.q j)]) (by
          have e1 := hmp (A.p i) (A.p (i + 1)) (by omega)
          have e2 := hmp (A.p i) (B.p (j + 1)) (by omega)
          have e3 := hmp (B.p j) (A.p (i + 1)) (by omega)
          have e4 := hmp (B.p j) (B.p (j + 1)) (by omega)
          simp only [List.zip_cons_cons, List.zip_nil_right, List.mem_cons, List.not_mem_nil, or_false]
          rintro x (rfl | rfl | rfl | rfl) <;> simp only <;> linarith)
      simp only [List.zip_cons_cons, List.zip_nil_right, List.mem_cons, List.not_mem_nil, or_false] at ht
      have t1 := ht _ (Or.inl rfl)
      have t2 := ht _ (Or.inr (Or.inl rfl))
      have t3 := ht _ (Or.inr (Or.inr (Or.inl rfl)))
      have t4 := ht _ (Or.inr (Or.inr (Or.inr rfl)))
      exact overlap_of h0 h1 (by unfold Stack.depth; linarith) (by unfold Stack.depth; linarith) (by unfold Stack.depth; linarith) (by unfold Stack.depth; linarith)
    · obtain ⟨t, h0, h1, ht⟩ := near_right (d := [hp (A.p (i + 1)) - hp (A.p i), hp (B.p (j + 1)) - hp (A.p i), hp (A.p (i + 1)) - hp (B.p j), hp (B.p (j + 1)) - hp (B.p j)])
        (e := [hq (A.q (i + 1)) - hq (A.q i), hq (B.q (j + 1)) - hq (A.q i), hq (A.q (i + 1)) - hq (B.q j), hq (B.q (j + 1)) - hq (B.q j)]) rfl (by
          have e1 := hmq (A.q i) (A.q (i + 1)) (by omega)
          have e2 := hmq (A.q i) (B.q (j + 1)) (by omega)
          have e3 := hmq (B.q j) (A.q (i + 1)) (by omega)
          have e4 := hmq (B.q j) (B.q (j + 1)) (by omega)
          simp only [List.zip_cons_cons, List.zip_nil_right, List.mem_cons, List.not_mem_nil, or_false]
          rintro x (rfl | rfl | rfl | rfl) <;> simp only <;> linarith)
      simp only [List.zip_cons_cons, List.zip_nil_right, List.mem_cons, List.not_mem_nil, or_false] at ht
      have t1 := ht _ (Or.inl rfl)
      have t2 := ht _ (Or.inr (Or.inl rfl))
      have t3 := ht _ (Or.inr (Or.inr (Or.inl rfl)))
      have t4 := ht _ (Or.inr (Or.inr (Or.inr rfl)))
      exact overlap_of h0 h1 (by unfold Stack.depth; linarith) (by unfold Stack.depth; linarith) (by unfold Stack.depth; linarith) (by unfold Stack.depth; linarith)
    · obtain ⟨t, h0, h1, ht⟩ := cross_point (a0 := hp (A.p i)) (a1 := hq (A.q i)) (b0 := hp (B.p j)) (b1 := hq (B.q j)) (by
        rcases hF with hF | hF
        · exact Or.inl ⟨hmp _ _ hF.1, hmq _ _ hF.2⟩
        · exact Or.inr ⟨hmp _ _ hF.1, hmq _ _ hF.2⟩)
      have e : A.depth hp hq i t = B.depth hp hq j t := ht
      have f1 : A.depth hp hq i t < A.depth hp hq (i + 1) t := depth_lt h0 h1 hmp hmq o1 o2 hab.aa
      have f2 : B.depth hp hq j t < B.depth hp hq (j + 1) t := depth_lt h0 h1 hmp hmq o3 o4 hab.bb
      exact overlap_of h0 h1 f1 (by rw [e]; exact f2) (by rw [← e]; exact f1) f2
    · obtain ⟨t, h0, h1, ht⟩ := cross_point (a0 := hp (A.p (i + 1))) (a1 := hq (A.q (i + 1))) (b0 := hp (B.p (j + 1))) (b1 := hq (B.q (j + 1))) (by
        rcases hF with hF | hF
        · exact Or.inl ⟨hmp _ _ hF.1, hmq _ _ hF.2⟩
        · exact Or.inr ⟨hmp _ _ hF.1, hmq _ _ hF.2⟩)
      have e : A.depth hp hq (i + 1) t = B.depth hp hq (j + 1) t := ht
      have f1 : A.depth hp hq i t < A.depth hp hq (i + 1) t := depth_lt h0 h1 hmp hmq o1 o2 hab.aa
      have f2 : B.depth hp hq j t < B.depth hp hq (j + 1) t := depth_lt h0 h1 hmp hmq o3 o4 hab.bb
      exact overlap_of h0 h1 f1 (by rw [← e]; exact f1) (by rw [e]; exact f2) f2

end

end

end Opm.Cpg
