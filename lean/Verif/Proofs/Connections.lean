import Verif.Proofs.FaceOutline
/-!
# The faces and crossings of `findconnections` satisfy their specification
-/

namespace Opm.Cpg
open Opm UniquePoints

section
variable {A B : Stack} {n : Nat}

/-- The pairs of layers which get a face. -/
def facePairs (A B : Stack) (n : Nat) : List (Nat × Nat) :=
  (List.range (n - 1)).flatMap (fun i => (List.range (n - 1)).flatMap (fun j => if Makes A B i j then [(i, j)] else []))

theorem mem_facePairs {i j : Nat} : (i, j) ∈ facePairs A B n ↔ i < n - 1 ∧ j < n - 1 ∧ Makes A B i j := by
  unfold facePairs
  simp only [List.mem_flatMap, List.mem_range]
  constructor
  · rintro ⟨i', hi, j', hj, h⟩
    split at h
    · rename_i hm
      rw [List.mem_singleton, Prod.mk.injEq] at h
      rw [h.1, h.2]
      exact ⟨hi, hj, hm⟩
    · cases h
  · rintro ⟨hi, hj, hm⟩
    exact ⟨i, hi, j, hj, by rw [if_pos hm]; exact List.mem_singleton_self _⟩

theorem connFaces_map (base : Nat) : connFaces A B n base = (facePairs A B n).map (fun ij => ⟨cellOf ij.1, cellOf ij.2, pairNodes A B n base ij.1 ij.2⟩) := by
  unfold connFaces facesUpTo rowFaces facePairs
  rw [List.map_flatMap]
  congr 1
  funext i
  rw [List.map_flatMap]
  congr 1
  funext j
  unfold faceAt
  split <;> rfl

theorem facePairs_sorted : (facePairs A B n).Pairwise (fun a b => a.1 < b.1 ∨ (a.1 = b.1 ∧ a.2 < b.2)) := by
  unfold facePairs
  rw [List.pairwise_flatMap]
  constructor
  · intro i _
    rw [List.pairwise_flatMap]
    constructor
    · intro j _
      split
      · exact List.pairwise_singleton _ _
      · exact List.Pairwise.nil
    · refine List.Pairwise.imp ?_ (List.pairwise_lt_range (n := n - 1))
      intro j j' hjj x hx y hy
      split at hx
      · split at hy
        · rw [List.mem_singleton] at hx hy
          subst hx; subst hy
          exact Or.inr ⟨rfl, hjj⟩
        · cases hy
      · cases hx
  · refine List.Pairwise.imp ?_ (List.pairwise_lt_range (n := n - 1))
    intro i i' hii x hx y hy
    left
    rw [List.mem_flatMap] at hx hy
    obtain ⟨j, _, hx⟩ := hx
    obtain ⟨j', _, hy⟩ := hy
    split at hx
    · split at hy
      · rw [List.mem_singleton] at hx hy
        subst hx; subst hy
        exact hii
      · cases hy
    · cases hx

theorem rowCross_nodup (hA : A.Ok n) (hB : B.Ok n) {i : Nat} (hi : i < n - 1) : ∀ j, j ≤ n - 1 → (crossUpTo A B n i).Nodup → (crossUpTo A B n i ++ rowCross A B i j).Nodup := by
  intro j
  induction j with
  | zero => intro _ h; unfold rowCross; simpa using h
  | succ j ih =>
    intro hj h
    rw [rowCross_succ, ← List.append_assoc]
    unfold crossAt
    split
    · rename_i hc
      rw [List.nodup_append]
      refine ⟨ih (by omega) h, List.nodup_singleton _, ?_⟩
      intro a ha b hb e
      rw [List.mem_singleton] at hb
      subst hb; subst e
      exact quad_fresh hA hB hi (by omega) hc.1 hc.2.1 ha
    · rw [List.append_nil]
      exact ih (by omega) h

theorem crossings_nodup (hA : A.Ok n) (hB : B.Ok n) : (crossings A B n).Nodup := by
  have : ∀ i, i ≤ n - 1 → (crossUpTo A B n i).Nodup := by
    intro i
    induction i with
    | zero => intro _; unfold crossUpTo; simp
    | succ i ih =>
      intro hi
      rw [crossUpTo_succ]
      exact rowCross_nodup hA hB hi _ (Nat.le_refl _) (ih (by omega))
  exact this _ (Nat.le_refl _)

/-- All crossings are recorded. -/
theorem quad_mem (hA : A.Ok n) (hB : B.Ok n) : ∀ (i j : Nat), i < n → j < n → Cross A B i j → quad A B i j ∈ crossings A B n := by
  intro i
  induction i with
  | zero => intro j _ hj h; exact absurd h (cross_top hA hB hj)
  | succ i ih =>
    intro j
    induction j with
    | zero => intro hi _ h; exact absurd h (cross_last hA hB hi)
    | succ j ihj =>
      intro hi hj h
      by_cases h1 : A.Empty i
      · have e : quad A B (i + 1) (j + 1) = quad A B i (j + 1) := by unfold quad; rw [h1.1, h1.2]
        rw [e]
        refine ih (j + 1) (by omega) hj ?_
        unfold Cross at h ⊢
        rwa [h1.1, h1.2]
      · by_cases h2 : B.Empty j
        · have e : quad A B (i + 1) (j + 1) = quad A B (i + 1) j := by unfold quad; rw [h2.1, h2.2]
          rw [e]
          refine ihj hi (by omega) ?_
          unfold Cross at h ⊢
          rwa [h2.1, h2.2]
        · exact mem_crossings.2 ⟨i, j, by omega, by omega, h1, h2, h, rfl⟩

theorem cellOf_eq (i : Nat) : cellOf i = cellNumber i := by
  unfold cellOf cellNumber
  rcases Nat.mod_two_eq_zero_or_one i with h | h
  · rw [if_neg (by omega), if_neg (by unfold IsCell; omega)]
  · rw [if_pos (by omega), if_pos (show IsCell i from h)]
    congr 1
    omega

theorem cellOf_ne {i : Nat} : cellOf i ≠ -1 ↔ IsCell i := by
  rw [cellOf_eq]
  unfold cellNumber
  split
  · rename_i h; exact ⟨fun _ => h, fun _ => by omega⟩
  · rename_i h; exact ⟨fun e => absurd rfl e, fun e => absurd e h⟩

theorem meaningful_iff {i j : Nat} : meaningful (A.layer i) (B.layer j) = true ↔ ¬ (A.p i = intMin ∧ B.p j = intMin) ∧ ¬ (A.p (i + 1) = intMax ∧ B.p (j + 1) = intMax) := by
  unfold meaningful Stack.layer
  simp only [Bool.and_eq_true, Bool.not_eq_true', Bool.and_eq_false_iff, decide_eq_false_iff_not]
  omega

/-- The test for meaningful faces only excludes pairs of gaps. -/
theorem makes_iff (hA : A.Ok n) (hB : B.Ok n) {hp hq : Int → Rat} (hmp : Deeper hp) (hmq : Deeper hq) {i j : Nat} (hi : i < n - 1) (hj : j < n - 1) :
    Makes A B i j ↔ (IsCell i ∨ IsCell j) ∧ Overlap A B hp hq i j := by
  rw [overlap_iff (ordered hA hB hi hj) hmp hmq]
  unfold Makes
  rw [cellOf_ne, cellOf_ne]
  constructor
  · rintro ⟨h1, h2, h3, _, h5⟩
    exact ⟨h5, h1, h2, h3⟩
  · rintro ⟨h5, h1, h2, h3⟩
    refine ⟨h1, h2, h3, ?_, h5⟩
    rw [meaningful_iff]
    rcases h5 with h | h
    · rcases hA.cell i h (by omega) with h' | h'
      · exact absurd h' h1
      · omega
    · rcases hB.cell j h (by omega) with h' | h'
      · exact absurd h' h2
      · omega

theorem conn_spec (hA : A.Ok n) (hB : B.Ok n) (base : Nat) : Connections A B n base (connFaces A B n base) (crossings A B n) where
  faces := by
    refine ⟨xnum A B n base, facePairs A B n, facePairs_sorted, ?_, ?_, ?_⟩
    · intro hp hq h1 h2 i j
      rw [mem_facePairs]
      constructor
      · rintro ⟨hi, hj, h⟩; exact ⟨hi, hj, (makes_iff hA hB h1 h2 hi hj).1 h⟩
      · rintro ⟨hi, hj, h⟩; exact ⟨hi, hj, (makes_iff hA hB h1 h2 hi hj).2 h⟩
    · rw [connFaces_map, List.forall₂_map_right_iff, List.forall₂_same]
      rintro ⟨i, j⟩ h
      rw [mem_facePairs] at h
      refine ⟨cellOf_eq i, cellOf_eq j, ?_⟩
      obtain ⟨k, hk⟩ := (pairNodes_outline (base := base) hA hB h.1 h.2.1 h.2.2).symm
      exact ⟨k, hk.symm⟩
    · intro i j hi hj h
      have hm := quad_mem hA hB i j hi hj h
      refine ⟨(crossings A B n).idxOf (quad A B i j), ?_, ?_⟩
      · unfold xnum; rw [if_pos h]
      · rw [List.getElem?_eq_getElem (List.idxOf_lt_length_of_mem hm), List.getElem_idxOf]
  once := crossings_nodup hA hB
  cross := by
    intro q hq
    obtain ⟨i, j, hi, hj, _, _, h, e⟩ := mem_crossings.1 hq
    exact ⟨i + 1, j + 1, by omega, by omega, h, e⟩

/-! ### Faces are simple polygons -/

theorem three_corners {x : Nat → Nat → Int} {i j : Nat} (h : Ordered A B i j) (hab : Above A B i j) : 3 ≤ (outline A B x i j).length := by
  have hF := ((above_iff h).2 hab).2.2
  rw [faceX_iff] at hF
  obtain ⟨o1, o2, o3, o4⟩ := h
  have left : (max (A.p i) (B.p j) < min (A.p (i + 1)) (B.p (j + 1)) → 2 ≤ (if max (A.p i) (B.p j) < min (A.p (i + 1)) (B.p (j + 1)) then [max (A.p i) (B.p j)] else []).length +
      (if max (A.p i) (B.p j) ≤ min (A.p (i + 1)) (B.p (j + 1)) then [min (A.p (i + 1)) (B.p (j + 1))] else []).length) ∧
      1 ≤ (if B.p (j + 1) < A.p i then [x i (j + 1)] else if A.p (i + 1) < B.p j then [x (i + 1) j] else []).length +
      (if max (A.p i) (B.p j) ≤ min (A.p (i + 1)) (B.p (j + 1)) then [min (A.p (i + 1)) (B.p (j + 1))] else []).length := by
    refine ⟨fun h => ?_, ?_⟩
    · rw [if_pos h, if_pos (le_of_lt h)]; rfl
    · by_cases h1 : B.p (j + 1) < A.p i
      · rw [if_pos h1]; simp
      · by_cases h2 : A.p (i + 1) < B.p j
        · rw [if_neg h1, if_pos h2]; simp
        · rw [if_neg h1, if_neg h2, if_pos (by omega)]; simp
  have right : (max (A.q i) (B.q j) < min (A.q (i + 1)) (B.q (j + 1)) → 2 ≤ (if max (A.q i) (B.q j) < min (A.q (i + 1)) (B.q (j + 1)) then [max (A.q i) (B.q j)] else []).length +
      (if max (A.q i) (B.q j) ≤ min (A.q (i + 1)) (B.q (j + 1)) then [min (A.q (i + 1)) (B.q (j + 1))] else []).length) ∧
      1 ≤ (if B.q (j + 1) < A.q i then [x i (j + 1)] else if A.q (i + 1) < B.q j then [x (i + 1) j] else []).length +
      (if max (A.q i) (B.q j) ≤ min (A.q (i + 1)) (B.q (j + 1)) then [min (A.q (i + 1)) (B.q (j + 1))] else []).length := by
    refine ⟨fun h => ?_, ?_⟩
    · rw [if_pos h, if_pos (le_of_lt h)]; rfl
    · by_cases h1 : B.q (j + 1) < A.q i
      · rw [if_pos h1]; simp
      · by_cases h2 : A.q (i + 1) < B.q j
        · rw [if_neg h1, if_pos h2]; simp
        · rw [if_neg h1, if_neg h2, if_pos (by omega)]; simp
  have upper : Cross A B i j → (if Cross A B i j then [x i j] else []).length = 1 := fun h => by rw [if_pos h]; rfl
  have lower : Cross A B (i + 1) (j + 1) → (if Cross A B (i + 1) (j + 1) then [x (i + 1) (j + 1)] else []).length = 1 := fun h => by rw [if_pos h]; rfl
  unfold outline
  simp only [List.length_append]
  rcases hF with hF | hF | hF | hF
  · have := left.1 hF; omega
  · have := right.1 hF; omega
  · have := upper hF; omega
  · have := lower hF; omega

/-- Optional entries. -/
def opts (l : List (Bool × Int)) : List Int := l.flatMap (fun cv => if cv.1 then [cv.2] else [])

theorem opts_nodup {l : List (Bool × Int)} (h : l.Pairwise (fun a b => a.1 = true → b.1 = true → a.2 ≠ b.2)) : (opts l).Nodup := by
  unfold opts List.Nodup
  rw [List.pairwise_flatMap]
  constructor
  · intro a _
    split
    · exact List.pairwise_singleton _ _
    · exact List.Pairwise.nil
  · refine List.Pairwise.imp ?_ h
    intro a b hab x hx y hy
    split at hx
    · split at hy
      · rw [List.mem_singleton] at hx hy
        subst hx; subst hy
        exact hab ‹_› ‹_›
      · cases hy
    · cases hx

theorem outline_opts (x : Nat → Nat → Int) (i j : Nat) : outline A B x i j = opts [
    (decide (B.p (j + 1) < A.p i ∨ A.p (i + 1) < B.p j), if B.p (j + 1) < A.p i then x i (j + 1) else x (i + 1) j),
    (decide (max (A.p i) (B.p j) < min (A.p (i + 1)) (B.p (j + 1))), max (A.p i) (B.p j)),
    (decide (Cross A B i j), x i j),
    (decide (max (A.q i) (B.q j) < min (A.q (i + 1)) (B.q (j + 1))), max (A.q i) (B.q j)),
    (decide (B.q (j + 1) < A.q i ∨ A.q (i + 1) < B.q j), if B.q (j + 1) < A.q i then x i (j + 1) else x (i + 1) j),
    (decide (max (A.q i) (B.q j) ≤ min (A.q (i + 1)) (B.q (j + 1))), min (A.q (i + 1)) (B.q (j + 1))),
    (decide (Cross A B (i + 1) (j + 1)), x (i + 1) (j + 1)),
    (decide (max (A.p i) (B.p j) ≤ min (A.p (i + 1)) (B.p (j + 1))), min (A.p (i + 1)) (B.p (j + 1)))] := by
  have e : ∀ (P Q : Prop) [Decidable P] [Decidable Q] (u v : Int), (if P then [u] else if Q then [v] else []) = if decide (P ∨ Q) = true then [if P then u else v] else [] := by
    intro P Q _ _ u v
    by_cases hP : P
    · rw [if_pos hP, if_pos hP, if_pos (by simp [hP])]
    · by_cases hQ : Q
      · rw [if_neg hP, if_pos hQ, if_neg hP, if_pos (by simp [hQ])]
      · rw [if_neg hP, if_neg hQ, if_neg (by simp [hP, hQ])]
  unfold outline opts
  simp only [List.flatMap_cons, List.flatMap_nil, List.append_nil, e, decide_eq_true_eq, List.append_assoc]

/-- The corners of a face are different, if points on the pillars are different from each other and from the crossings. -/
theorem corners_nodup {x : Nat → Nat → Int} {i j : Nat} {base : Int} (ho : Ordered A B i j) (hab : Above A B i j)
    (hx : ∀ k l, (k = i ∨ k = i + 1) → (l = j ∨ l = j + 1) → Cross A B k l → base ≤ x k l)
    (hinj : ∀ k l k' l', (k = i ∨ k = i + 1) → (l = j ∨ l = j + 1) → (k' = i ∨ k' = i + 1) → (l' = j ∨ l' = j + 1) → Cross A B k l → Cross A B k' l' → x k l = x k' l' →
      quad A B k l = quad A B k' l')
    (hP : max (A.p i) (B.p j) ≤ min (A.p (i + 1)) (B.p (j + 1)) → min (A.p (i + 1)) (B.p (j + 1)) < base)
    (hQ : max (A.q i) (B.q j) ≤ min (A.q (i + 1)) (B.q (j + 1)) → min (A.q (i + 1)) (B.q (j + 1)) < base)
    (hPQ : max (A.p i) (B.p j) ≤ min (A.p (i + 1)) (B.p (j + 1)) → max (A.q i) (B.q j) ≤ min (A.q (i + 1)) (B.q (j + 1)) →
      max (A.p i) (B.p j) ≠ max (A.q i) (B.q j) ∧ max (A.p i) (B.p j) ≠ min (A.q (i + 1)) (B.q (j + 1)) ∧ min (A.p (i + 1)) (B.p (j + 1)) ≠ max (A.q i) (B.q j) ∧
      min (A.p (i + 1)) (B.p (j + 1)) ≠ min (A.q (i + 1)) (B.q (j + 1))) :
    (outline A B x i j).Nodup := by
  obtain ⟨o1, o2, o3, o4⟩ := ho
  obtain ⟨h1, h2, h3, h4⟩ := hab
  have c01 : B.p (j + 1) < A.p i → Cross A B i (j + 1) := by intro h; unfold Cross; omega
  have c10 : A.p (i + 1) < B.p j → Cross A B (i + 1) j := by intro h; unfold Cross; omega
  have d01 : B.q (j + 1) < A.q i → Cross A B i (j + 1) := by intro h; unfold Cross; omega
  have d10 : A.q (i + 1) < B.q j → Cross A B (i + 1) j := by intro h; unfold Cross; omega
  have q1 : ∀ {k l k' l'}, quad A B k l = quad A B k' l' → A.p k = A.p k' ∧ A.q k = A.q k' ∧ B.p l = B.p l' ∧ B.q l = B.q l' := by
    intro k l k' l' h
    unfold quad at h
    simp only [List.cons.injEq, and_true] at h
    exact h
  -- different crossings of these lines have different numbers
  have n00 : Cross A B i j → Cross A B i (j + 1) → x i j ≠ x i (j + 1) := fun a b e => by
    have := q1 (hinj i j i (j + 1) (Or.inl rfl) (Or.inl rfl) (Or.inl rfl) (Or.inr rfl) a b e); omega
  have n01 : Cross A B i j → Cross A B (i + 1) j → x i j ≠ x (i + 1) j := fun a b e => by
    have := q1 (hinj i j (i + 1) j (Or.inl rfl) (Or.inl rfl) (Or.inr rfl) (Or.inl rfl) a b e); omega
  have n02 : Cross A B i j → Cross A B (i + 1) (j + 1) → x i j ≠ x (i + 1) (j + 1) := fun a b e => by
    have := q1 (hinj i j (i + 1) (j + 1) (Or.inl rfl) (Or.inl rfl) (Or.inr rfl) (Or.inr rfl) a b e); omega
  have n12 : Cross A B i (j + 1) → Cross A B (i + 1) j → x i (j + 1) ≠ x (i + 1) j := fun a b e => by
    have := q1 (hinj i (j + 1) (i + 1) j (Or.inl rfl) (Or.inr rfl) (Or.inr rfl) (Or.inl rfl) a b e); omega
  have n13 : Cross A B i (j + 1) → Cross A B (i + 1) (j + 1) → x i (j + 1) ≠ x (i + 1) (j + 1) := fun a b e => by
    have := q1 (hinj i (j + 1) (i + 1) (j + 1) (Or.inl rfl) (Or.inr rfl) (Or.inr rfl) (Or.inr rfl) a b e); omega
  have n23 : Cross A B (i + 1) j → Cross A B (i + 1) (j + 1) → x (i + 1) j ≠ x (i + 1) (j + 1) := fun a b e => by
    have := q1 (hinj (i + 1) j (i + 1) (j + 1) (Or.inr rfl) (Or.inl rfl) (Or.inr rfl) (Or.inr rfl) a b e); omega
  have b00 := hx i j (Or.inl rfl) (Or.inl rfl)
  have b01 := hx i (j + 1) (Or.inl rfl) (Or.inr rfl)
  have b10 := hx (i + 1) j (Or.inr rfl) (Or.inl rfl)
  have b11 := hx (i + 1) (j + 1) (Or.inr rfl) (Or.inr rfl)
  -- the crossing on the left, and the one on the right
  have left : B.p (j + 1) < A.p i ∨ A.p (i + 1) < B.p j → ∃ k l, (if B.p (j + 1) < A.p i then x i (j + 1) else x (i + 1) j) = x k l ∧ Cross A B k l ∧
      ((k = i ∧ l = j + 1 ∧ B.p (j + 1) < A.p i) ∨ (k = i + 1 ∧ l = j ∧ A.p (i + 1) < B.p j)) := by
    intro h
    by_cases hl : B.p (j + 1) < A.p i
    · exact ⟨i, j + 1, by rw [if_pos hl], c01 hl, Or.inl ⟨rfl, rfl, hl⟩⟩
    · exact ⟨i + 1, j, by rw [if_neg hl], c10 (h.resolve_left hl), Or.inr ⟨rfl, rfl, h.resolve_left hl⟩⟩
  have right : B.q (j + 1) < A.q i ∨ A.q (i + 1) < B.q j → ∃ k l, (if B.q (j + 1) < A.q i then x i (j + 1) else x (i + 1) j) = x k l ∧ Cross A B k l ∧
      ((k = i ∧ l = j + 1 ∧ B.q (j + 1) < A.q i) ∨ (k = i + 1 ∧ l = j ∧ A.q (i + 1) < B.q j)) := by
    intro h
    by_cases hl : B.q (j + 1) < A.q i
    · exact ⟨i, j + 1, by rw [if_pos hl], d01 hl, Or.inl ⟨rfl, rfl, hl⟩⟩
    · exact ⟨i + 1, j, by rw [if_neg hl], d10 (h.resolve_left hl), Or.inr ⟨rfl, rfl, h.resolve_left hl⟩⟩
  rw [outline_opts]
  apply opts_nodup
  simp only [List.pairwise_cons, List.mem_cons, List.not_mem_nil, or_false, forall_eq_or_imp, forall_eq, decide_eq_true_eq, List.Pairwise.nil, and_true, IsEmpty.forall_iff,
    implies_true]
  have L : ∀ {v : Int}, v < base → B.p (j + 1) < A.p i ∨ A.p (i + 1) < B.p j → (if B.p (j + 1) < A.p i then x i (j + 1) else x (i + 1) j) ≠ v := by
    intro v hv h
    obtain ⟨k, l, e, hc, hkl⟩ := left h
    rw [e]
    rcases hkl with ⟨rfl, rfl, _⟩ | ⟨rfl, rfl, _⟩
    · have := b01 hc; omega
    · have := b10 hc; omega
  have R : ∀ {v : Int}, v < base → B.q (j + 1) < A.q i ∨ A.q (i + 1) < B.q j → (if B.q (j + 1) < A.q i then x i (j + 1) else x (i + 1) j) ≠ v := by
    intro v hv h
    obtain ⟨k, l, e, hc, hkl⟩ := right h
    rw [e]
    rcases hkl with ⟨rfl, rfl, _⟩ | ⟨rfl, rfl, _⟩
    · have := b01 hc; omega
    · have := b10 hc; omega
  refine ⟨⟨?_, ?_, ?_, ?_, ?_, ?_, ?_⟩, ⟨?_, ?_, ?_, ?_, ?_, ?_⟩, ⟨?_, ?_, ?_, ?_, ?_⟩, ⟨?_, ?_, ?_, ?_⟩, ⟨?_, ?_, ?_⟩, ⟨?_, ?_⟩, ?_⟩
  · intro h h'; exact L (by have := hP (le_of_lt h'); omega) h
  · intro h h'
    obtain ⟨k, l, e, hc, hkl⟩ := left h
    rw [e]
    rcases hkl with ⟨rfl, rfl, _⟩ | ⟨rfl, rfl, _⟩
    · exact (n00 h' hc).symm
    · exact (n01 h' hc).symm
  · intro h h'; exact L (by have := hQ (le_of_lt h'); omega) h
  · intro h h'
    obtain ⟨k, l, e, hc, hkl⟩ := left h
    obtain ⟨k', l', e', hc', hkl'⟩ := right h'
    rw [e, e']
    rcases hkl with ⟨rfl, rfl, g⟩ | ⟨rfl, rfl, g⟩
    · rcases hkl' with ⟨rfl, rfl, g'⟩ | ⟨rfl, rfl, g'⟩
      · omega
      · exact n12 hc hc'
    · rcases hkl' with ⟨rfl, rfl, g'⟩ | ⟨rfl, rfl, g'⟩
      · exact (n12 hc' hc).symm
      · omega
  · intro h h'; exact L (hQ h') h
  · intro h h'
    obtain ⟨k, l, e, hc, hkl⟩ := left h
    rw [e]
    rcases hkl with ⟨rfl, rfl, _⟩ | ⟨rfl, rfl, _⟩
    · exact n13 hc h'
    · exact n23 hc h'
  · intro h h'; exact L (hP h') h
  · intro h h'; have := b00 h'; have := hP (le_of_lt h); omega
  · intro h h'; exact (hPQ (le_of_lt h) (le_of_lt h')).1
  · intro h h'; exact (R (by have := hP (le_of_lt h); omega) h').symm
  · intro h h'; exact (hPQ (le_of_lt h) h').2.1
  · intro h h'; have := b11 h'; have := hP (le_of_lt h); omega
  · intro h h'; omega
  · intro h h'; have := b00 h; have := hQ (le_of_lt h'); omega
  · intro h h'
    obtain ⟨k, l, e, hc, hkl⟩ := right h'
    rw [e]
    rcases hkl with ⟨rfl, rfl, _⟩ | ⟨rfl, rfl, _⟩
    · exact n00 h hc
    · exact n01 h hc
  · intro h h'; have := b00 h; have := hQ h'; omega
  · exact n02
  · intro h h'; have := b00 h; have := hP h'; omega
  · intro h h'; exact (R (by have := hQ (le_of_lt h); omega) h').symm
  · intro h h'; omega
  · intro h h'; have := b11 h'; have := hQ (le_of_lt h); omega
  · intro h h'; exact ((hPQ h' (le_of_lt h)).2.2.1).symm
  · intro h h'; exact R (hQ h') h
  · intro h h'
    obtain ⟨k, l, e, hc, hkl⟩ := right h
    rw [e]
    rcases hkl with ⟨rfl, rfl, _⟩ | ⟨rfl, rfl, _⟩
    · exact n13 hc h'
    · exact n23 hc h'
  · intro h h'; exact R (hP h') h
  · intro h h'; have := b11 h'; have := hQ h; omega
  · intro h h'; exact ((hPQ h' h).2.2.2).symm
  · intro h h'; have := b11 h; have := hP h'; omega

theorem forall₂_mem {α β : Type _} {R : α → β → Prop} {l : List α} {m : List β} (h : List.Forall₂ R l m) {b : β} (hb : b ∈ m) : ∃ a ∈ l, R a b := by
  induction h with
  | nil => cases hb
  | cons h1 _ ih =>
    rcases List.mem_cons.1 hb with rfl | hb
    · exact ⟨_, List.mem_cons_self, h1⟩
    · obtain ⟨a, ha, hr⟩ := ih hb
      exact ⟨a, List.mem_cons_of_mem _ ha, hr⟩

theorem forall₂_mem' {α β : Type _} {R : α → β → Prop} {l : List α} {m : List β} (h : List.Forall₂ R l m) {a : α} (ha : a ∈ l) : ∃ b ∈ m, R a b := by
  induction h with
  | nil => cases ha
  | cons h1 _ ih =>
    rcases List.mem_cons.1 ha with rfl | ha
    · exact ⟨_, List.mem_cons_self, h1⟩
    · obtain ⟨b, hb, hr⟩ := ih ha
      exact ⟨b, List.mem_cons_of_mem _ hb, hr⟩

theorem deeper_cast : Deeper (fun x : Int => (x : Rat)) := by
  intro x y h
  show (x : Rat) < (y : Rat)
  exact_mod_cast h

end

end Opm.Cpg
