import Verif.Proofs.Connections
import Verif.Spec.Preprocess
import Mathlib.Algebra.BigOperators.Group.Finset.Basic
import Mathlib.Algebra.Order.BigOperators.Group.Finset
import Mathlib.Data.Finset.Card
import Mathlib.Data.Finset.Max
import Mathlib.Algebra.BigOperators.Group.Finset.Piecewise
import Mathlib.Tactic.Tauto
/-!
# Not more crossings than faces
-/

namespace Opm.Cpg
open Opm UniquePoints Finset

section
variable {A B : Stack} {n : Nat}

/-- The layers of `b` that overlap layer `i` of `a`. -/
def rowOver (A B : Stack) (n i : Nat) : Finset Nat := (range (n - 1)).filter (fun j => ¬ A.Empty i ∧ ¬ B.Empty j ∧ faceX (A.layer i) (B.layer j) = true)

/-- Those which get a face. -/
def rowMakes (A B : Stack) (n i : Nat) : Finset Nat := (range (n - 1)).filter (fun j => (IsCell i ∨ IsCell j) ∧ ¬ A.Empty i ∧ ¬ B.Empty j ∧ faceX (A.layer i) (B.layer j) = true)

/-- The layers of `b` whose lower line crosses the lower line of layer `i`. -/
def rowCrosses (A B : Stack) (n i : Nat) : Finset Nat := (range (n - 1)).filter (fun j => ¬ A.Empty i ∧ ¬ B.Empty j ∧ Cross A B (i + 1) (j + 1))

theorem makes_faceX (hA : A.Ok n) (hB : B.Ok n) {i j : Nat} (hi : i < n - 1) (hj : j < n - 1) :
    Makes A B i j ↔ (IsCell i ∨ IsCell j) ∧ ¬ A.Empty i ∧ ¬ B.Empty j ∧ faceX (A.layer i) (B.layer j) = true := by
  have hd : Deeper (fun x : Int => (x : Rat)) := fun x y h => by show (x : Rat) < y; exact_mod_cast h
  rw [makes_iff hA hB hd hd hi hj, overlap_iff (ordered hA hB hi hj) hd hd]

theorem length_ite_range {α : Type _} (p : Nat → Prop) [DecidablePred p] (x : Nat → α) (m : Nat) :
    ((List.range m).flatMap (fun j => if p j then [x j] else [])).length = ((range m).filter p).card := by
  induction m with
  | zero => rfl
  | succ m ih =>
    rw [List.range_succ, List.flatMap_append, List.length_append, ih, range_add_one, filter_insert]
    simp only [List.flatMap_cons, List.flatMap_nil, List.append_nil]
    split
    · rw [card_insert_of_notMem (by simp)]; rfl
    · simp

theorem length_flatMap_range {α : Type _} (f : Nat → List α) (m : Nat) : ((List.range m).flatMap f).length = ∑ i ∈ range m, (f i).length := by
  induction m with
  | zero => rfl
  | succ m ih => rw [List.range_succ, List.flatMap_append, List.length_append, ih, sum_range_succ]; simp

theorem length_facePairs (hA : A.Ok n) (hB : B.Ok n) : (facePairs A B n).length = ∑ i ∈ range (n - 1), (rowMakes A B n i).card := by
  unfold facePairs
  rw [length_flatMap_range]
  apply sum_congr rfl
  intro i hi
  rw [length_ite_range (fun j => Makes A B i j) (fun j => (i, j))]
  congr 1
  unfold rowMakes
  apply filter_congr
  intro j hj
  exact makes_faceX hA hB (mem_range.1 hi) (mem_range.1 hj)

theorem length_crossings_eq : (crossings A B n).length = ∑ i ∈ range (n - 1), (rowCrosses A B n i).card := by
  unfold crossings crossUpTo
  rw [length_flatMap_range]
  apply sum_congr rfl
  intro i _
  unfold rowCross crossAt
  rw [length_ite_range (fun j => ¬ A.Empty i ∧ ¬ B.Empty j ∧ Cross A B (i + 1) (j + 1)) (fun j => quad A B (i + 1) (j + 1))]
  rfl

theorem crosses_sub (i : Nat) : rowCrosses A B n i ⊆ rowOver A B n i := by
  intro j hj
  unfold rowCrosses at hj
  unfold rowOver
  rw [mem_filter] at hj ⊢
  exact ⟨hj.1, hj.2.1, hj.2.2.1, faceX_of_cross hj.2.2.2⟩

theorem Stack.Ok.leLast (hA : A.Ok n) {i : Nat} (hi : i < n) : A.p i ≤ intMax ∧ A.q i ≤ intMax := by
  have : ∀ d, i + d < n → A.p i ≤ A.p (i + d) ∧ A.q i ≤ A.q (i + d) := by
    intro d
    induction d with
    | zero => intro _; exact ⟨le_refl _, le_refl _⟩
    | succ d ih =>
      intro h
      obtain ⟨h1, h2⟩ := ih (by omega)
      exact ⟨le_trans h1 (hA.monoP (i + d) (by omega)), le_trans h2 (hA.monoQ (i + d) (by omega))⟩
  have h := this (n - 1 - i) (by omega)
  rw [show i + (n - 1 - i) = n - 1 by omega, hA.last.1, hA.last.2] at h
  exact h

theorem Stack.Ok.geFirst (hA : A.Ok n) {i : Nat} (hi : i < n) : intMin ≤ A.p i ∧ intMin ≤ A.q i := by
  induction i with
  | zero => rw [hA.first.1, hA.first.2]; exact ⟨le_refl _, le_refl _⟩
  | succ i ih =>
    obtain ⟨h1, h2⟩ := ih (by omega)
    exact ⟨le_trans h1 (hA.monoP i hi), le_trans h2 (hA.monoQ i hi)⟩

/-- The next layer that is not empty has the same upper line. -/
theorem next_layer (hB : B.Ok n) {j : Nat} (hj : j < n) (h : ¬ (B.p j = intMax ∧ B.q j = intMax)) :
    ∃ j', j ≤ j' ∧ j' < n - 1 ∧ ¬ B.Empty j' ∧ B.p j' = B.p j ∧ B.q j' = B.q j := by
  by_contra hc
  have : ∀ d, j + d < n → B.p (j + d) = B.p j ∧ B.q (j + d) = B.q j := by
    intro d
    induction d with
    | zero => intro _; exact ⟨rfl, rfl⟩
    | succ d ih =>
      intro hd
      obtain ⟨h1, h2⟩ := ih (by omega)
      have he : B.Empty (j + d) := by
        by_contra hne
        exact hc ⟨j + d, by omega, by omega, hne, h1, h2⟩
      exact ⟨by rw [← h1]; exact he.1.symm, by rw [← h2]; exact he.2.symm⟩
  have h1 := this (n - 1 - j) (by omega)
  rw [show j + (n - 1 - j) = n - 1 by omega, hB.last.1, hB.last.2] at h1
  exact h ⟨h1.1.symm, h1.2.symm⟩

/-- A layer that is not empty overlaps some layer whose lower line does not cross its lower line. -/
theorem row_extra (hA : A.Ok n) (hB : B.Ok n) {i : Nat} (hi : i < n - 1) (he : ¬ A.Empty i) : ∃ j ∈ rowOver A B n i, j ∉ rowCrosses A B n i := by
  have m1 := hA.monoP i (by omega)
  have m2 := hA.monoQ i (by omega)
  have he' : A.p i < A.p (i + 1) ∨ A.q i < A.q (i + 1) := by unfold Stack.Empty at he; omega
  rcases (rowCrosses A B n i).eq_empty_or_nonempty with hem | hne
  · -- the last line of `b` that is not below the upper line
    obtain ⟨l1, l2⟩ := hA.leLast (show i + 1 < n by omega)
    have hex : ∃ j, j < n - 1 ∧ ((B.p j ≤ A.p i ∧ A.p i < B.p (j + 1) ∧ A.p i < A.p (i + 1)) ∨ (B.q j ≤ A.q i ∧ A.q i < B.q (j + 1) ∧ A.q i < A.q (i + 1))) := by
      have find : ∀ (f : Nat → Int) (v : Int) (m : Nat), f 0 ≤ v → v < f m → ∃ j, j < m ∧ f j ≤ v ∧ v < f (j + 1) := by
        intro f v m
        induction m with
        | zero => intro h1 h2; omega
        | succ m ih =>
          intro h1 h2
          by_cases h3 : v < f m
          · obtain ⟨j, hj, h⟩ := ih h1 h3
            exact ⟨j, by omega, h⟩
          · exact ⟨m, by omega, by omega, h2⟩
      rcases he' with h | h
      · obtain ⟨j, hj, h1, h2⟩ := find B.p (A.p i) (n - 1) (by rw [hB.first.1]; exact (hA.geFirst (by omega)).1) (by rw [hB.last.1]; omega)
        exact ⟨j, hj, Or.inl ⟨h1, h2, h⟩⟩
      · obtain ⟨j, hj, h1, h2⟩ := find B.q (A.q i) (n - 1) (by rw [hB.first.2]; exact (hA.geFirst (by omega)).2) (by rw [hB.last.2]; omega)
        exact ⟨j, hj, Or.inr ⟨h1, h2, h⟩⟩
    obtain ⟨j, hj, h⟩ := hex
    refine ⟨j, ?_, by rw [hem]; simp⟩
    unfold rowOver
    rw [mem_filter, mem_range]
    refine ⟨hj, (above_iff (ordered hA hB hi hj)).2 ⟨he', ?_, ?_, ?_⟩⟩ <;> omega
  · -- below the last crossing
    set j := (rowCrosses A B n i).max' hne with hjdef
    have hj := (rowCrosses A B n i).max'_mem hne
    rw [← hjdef] at hj
    have hmem := hj
    unfold rowCrosses at hj
    rw [mem_filter, mem_range] at hj
    obtain ⟨hjn, _, hbe, hx⟩ := hj
    have hl := hA.leLast (show i + 1 < n by omega)
    have hlb := hB.leLast (show j + 1 < n by omega)
    obtain ⟨j', h1, h2, h3, h4, h5⟩ := next_layer hB (j := j + 1) (by omega) (by unfold Cross at hx; omega)
    refine ⟨j', ?_, ?_⟩
    · unfold rowOver
      rw [mem_filter, mem_range]
      have n1 := hB.monoP j' (by omega)
      have n2 := hB.monoQ j' (by omega)
      refine ⟨h2, (above_iff (ordered hA hB hi h2)).2 ⟨he', ?_, ?_, ?_⟩⟩
      · unfold Cross at hx; omega
      · unfold Cross at hx; omega
      · unfold Stack.Empty at h3; omega
    · intro hc
      have := (rowCrosses A B n i).le_max' _ hc
      omega

theorem row_card (hA : A.Ok n) (hB : B.Ok n) {i : Nat} (hi : i < n - 1) (he : ¬ A.Empty i) : (rowCrosses A B n i).card + 1 ≤ (rowOver A B n i).card := by
  obtain ⟨j, h1, h2⟩ := row_extra hA hB hi he
  rw [← card_insert_of_notMem h2]
  apply card_le_card
  intro k hk
  rcases mem_insert.1 hk with rfl | hk
  · exact h1
  · exact crosses_sub i hk

/-- A row of a cell. -/
theorem row_cell (hA : A.Ok n) (hB : B.Ok n) {i : Nat} (hi : i < n - 1) (he : ¬ A.Empty i) (hc : IsCell i) : (rowCrosses A B n i).card + 1 ≤ (rowMakes A B n i).card := by
  have : rowMakes A B n i = rowOver A B n i := by
    unfold rowMakes rowOver
    apply filter_congr
    intro j _
    simp [hc]
  rw [this]
  exact row_card hA hB hi he

/-- A row of a gap, if the other stack has no gaps. -/
theorem row_gap (hA : A.Ok n) (hB : B.Ok n) (hg : ∀ j, ¬ IsCell j → 0 < j → j < n - 2 → B.Empty j) {i : Nat} (hi : i < n - 1) (he : ¬ A.Empty i) :
    (rowCrosses A B n i).card ≤ (rowMakes A B n i).card + 1 := by
  have h1 := row_card hA hB hi he
  have h2 : rowOver A B n i ⊆ rowMakes A B n i ∪ {0, n - 2} := by
    intro j hj
    unfold rowOver at hj
    rw [mem_filter, mem_range] at hj
    rw [mem_union]
    by_cases hc : IsCell j
    · left
      unfold rowMakes
      rw [mem_filter, mem_range]
      exact ⟨hj.1, Or.inr hc, hj.2⟩
    · right
      rw [mem_insert, mem_singleton]
      by_contra hne
      exact hj.2.2.1 (hg j hc (by omega) (by omega))
  have h3 := le_trans (card_le_card h2) (card_union_le _ _)
  have h4 : ({0, n - 2} : Finset Nat).card ≤ 2 := card_le_two
  omega

theorem row_last (hA : A.Ok n) (hB : B.Ok n) : (rowCrosses A B n (n - 2)).card = 0 := by
  rw [card_eq_zero]
  by_contra hne
  obtain ⟨j, hj⟩ := nonempty_iff_ne_empty.2 hne
  unfold rowCrosses at hj
  rw [mem_filter, mem_range] at hj
  rw [show n - 2 + 1 = n - 1 by omega] at hj
  exact cross_bottom hA hB (by omega) hj.2.2.2

theorem row_empty {i : Nat} (he : A.Empty i) : (rowCrosses A B n i).card = 0 := by
  rw [card_eq_zero]
  unfold rowCrosses
  rw [filter_eq_empty_iff]
  intro j _ h
  exact h.1 he

theorem countP_eq_card (p : Nat → Prop) [DecidablePred p] (m : Nat) : (List.range m).countP (fun i => decide (p i)) = ∑ i ∈ range m, if p i then 1 else 0 := by
  induction m with
  | zero => rfl
  | succ m ih =>
    rw [List.range_succ, List.countP_append, ih, sum_range_succ]
    congr 1
    by_cases h : p m <;> simp [h]

theorem count_le (hA : A.Ok n) (hB : B.Ok n) (hn : 2 ≤ n) (hg : A.gaps n < A.cells n) (hg' : B.gaps n = 0) :
    ∑ i ∈ range (n - 1), (rowCrosses A B n i).card ≤ ∑ i ∈ range (n - 1), (rowMakes A B n i).card := by
  have hgB : ∀ j, ¬ IsCell j → 0 < j → j < n - 2 → B.Empty j := by
    intro j h1 h2 h3
    by_contra hne
    unfold Stack.gaps at hg'
    rw [List.countP_eq_zero] at hg'
    exact hg' j (List.mem_range.2 (by omega)) (by simp only [decide_eq_true_eq]; exact ⟨h1, h2, h3, hne⟩)
  unfold Stack.gaps Stack.cells at hg
  rw [countP_eq_card (fun i => IsCell i ∧ ¬ A.Empty i), countP_eq_card (fun i => ¬ IsCell i ∧ 0 < i ∧ i < n - 2 ∧ ¬ A.Empty i)] at hg
  have key : ∑ i ∈ range (n - 1), ((rowCrosses A B n i).card + if IsCell i ∧ ¬ A.Empty i then 1 else 0) ≤
      ∑ i ∈ range (n - 1), ((rowMakes A B n i).card + ((if ¬ IsCell i ∧ 0 < i ∧ i < n - 2 ∧ ¬ A.Empty i then 1 else 0) + if i = 0 then 1 else 0)) := by
    apply sum_le_sum
    intro i hi
    rw [mem_range] at hi
    by_cases he : A.Empty i
    · rw [row_empty he, if_neg (by simp [he])]; omega
    · by_cases hc : IsCell i
      · have := row_cell hA hB hi he hc
        rw [if_pos ⟨hc, he⟩]; omega
      · have := row_gap hA hB hgB hi he
        rw [if_neg (by simp [hc])]
        by_cases hl : i = n - 2
        · rw [hl, row_last hA hB]; omega
        · by_cases h0 : i = 0
          · rw [if_pos h0]; omega
          · rw [if_pos ⟨hc, by omega, by omega, he⟩]; omega
  rw [sum_add_distrib, sum_add_distrib, sum_add_distrib] at key
  have hz : ∑ i ∈ range (n - 1), (if i = 0 then 1 else 0) ≤ 1 := by
    rw [sum_ite_eq' (range (n - 1)) 0 (fun _ => 1)]
    split <;> omega
  omega

/-- Both counts do not depend on the order of the two stacks. -/
theorem sum_swap (p : Nat → Nat → Prop) [∀ i j, Decidable (p i j)] (m : Nat) :
    ∑ i ∈ range m, ((range m).filter (fun j => p i j)).card = ∑ j ∈ range m, ((range m).filter (fun i => p i j)).card := by
  simp only [card_filter]
  exact sum_comm

theorem cross_comm {i j : Nat} : Cross A B i j ↔ Cross B A j i := by unfold Cross; omega

theorem faceX_comm {i j : Nat} : faceX (A.layer i) (B.layer j) = true ↔ faceX (B.layer j) (A.layer i) = true := by
  rw [faceX_iff, faceX_iff, cross_comm (A := A), cross_comm (A := A), max_comm, min_comm, max_comm (A.q i), min_comm (A.q (i + 1))]

theorem swap_crosses : ∑ i ∈ range (n - 1), (rowCrosses A B n i).card = ∑ i ∈ range (n - 1), (rowCrosses B A n i).card := by
  unfold rowCrosses
  rw [sum_swap]
  apply sum_congr rfl
  intro j _
  congr 1
  apply filter_congr
  intro i _
  rw [cross_comm]
  tauto

theorem swap_makes : ∑ i ∈ range (n - 1), (rowMakes A B n i).card = ∑ i ∈ range (n - 1), (rowMakes B A n i).card := by
  unfold rowMakes
  rw [sum_swap]
  apply sum_congr rfl
  intro j _
  congr 1
  apply filter_congr
  intro i _
  rw [faceX_comm]
  tauto

theorem tame_of_count (hA : A.Ok n) (hB : B.Ok n) (h : ∑ i ∈ range (n - 1), (rowCrosses A B n i).card ≤ ∑ i ∈ range (n - 1), (rowMakes A B n i).card) : Tame A B n := by
  intro base fs qs hc
  have hd : Deeper (fun x : Int => (x : Rat)) := fun x y h => by show (x : Rat) < y; exact_mod_cast h
  obtain ⟨x, pairs, hs, hm, hf, hx⟩ := hc.faces
  have e1 : fs.length = (facePairs A B n).length := by
    rw [← hf.length_eq]
    apply List.Perm.length_eq
    rw [List.perm_ext_iff_of_nodup]
    · rintro ⟨i, j⟩
      rw [hm _ _ hd hd, mem_facePairs]
      constructor
      · rintro ⟨hi, hj, h⟩; exact ⟨hi, hj, (makes_iff hA hB hd hd hi hj).2 h⟩
      · rintro ⟨hi, hj, h⟩; exact ⟨hi, hj, (makes_iff hA hB hd hd hi hj).1 h⟩
    · apply hs.imp
      rintro a b h rfl
      omega
    · apply List.Pairwise.imp _ (facePairs_sorted (A := A) (B := B) (n := n))
      rintro a b h rfl
      omega
  have e2 : qs.length = (crossings A B n).length := by
    apply List.Perm.length_eq
    rw [List.perm_ext_iff_of_nodup hc.once (crossings_nodup hA hB)]
    intro q
    constructor
    · intro hq
      obtain ⟨i, j, hi, hj, hcr, rfl⟩ := hc.cross q hq
      exact quad_mem hA hB i j hi hj hcr
    · intro hq
      obtain ⟨i, j, hi, hj, _, _, hcr, rfl⟩ := mem_crossings.1 hq
      obtain ⟨k, _, hk⟩ := hx (i + 1) (j + 1) (by omega) (by omega) hcr
      exact List.mem_of_getElem? hk
  rw [e1, e2, length_facePairs hA hB, length_crossings_eq]
  exact h

end

end Opm.Cpg
