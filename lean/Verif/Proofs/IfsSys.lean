import Verif.Spec.IfsTpfa
import Verif.Props.SparseSys
import Verif.Proofs.GridSums
import Verif.Proofs.Sums
import Mathlib.Tactic.Linarith
import Mathlib.Tactic.Ring
/-!
# Updating a linear system entry by entry

Every statement of the assembly adds to one matrix element or one right-hand side entry; what that does to the residual `b - A x`, for all `x`.
-/

namespace Opm.IfsTpfa
open Opm Opm.SparseSys Graph

/-- A vector and a row. -/
abbrev XR := (Nat → Rat) × Nat

/-- The residual of row `xr.2` at the vector `xr.1`. -/
def Res (A : Csr) (s : Sys) (xr : XR) : Rat := s.b.getD xr.2 0 - rowDot A s.sa xr.1 xr.2

/-- The structure of a matrix. -/
structure MatOk (A : Csr) : Prop where
  pos : RowPos A.m A.ia
  len : A.ia.length = A.m + 1
  nnz : A.ia.getD A.m 0 = A.nnz
  ja : A.ja.length = A.nnz

/-- Element `(i, j)` is present, at position `k`. -/
def ElmAt (A : Csr) (i j k : Nat) : Prop :=
  i < A.m ∧ elmIndex i j A.ia A.ja = .ok k ∧ A.ia.getD i 0 ≤ k ∧ k < A.ia.getD (i + 1) 0 ∧ A.ja.getD k 0 = j

def HasElm (A : Csr) (i j : Nat) : Prop := ∃ k, ElmAt A i j k

/-- The arrays have the right sizes. -/
def SysOk (A : Csr) (s : Sys) : Prop := s.sa.length = A.nnz ∧ s.b.length = A.m

theorem rowDot_set {A : Csr} (hA : MatOk A) {sa : List Rat} (hsa : sa.length = A.nnz) {i j k : Nat} (hk : ElmAt A i j k) (v : Rat) (x : Nat → Rat) (r : Nat) :
    rowDot A (sa.set k (sa.getD k 0 + v)) x r = rowDot A sa x r + if r = i then v * x j else 0 := by
  obtain ⟨hi, _, h1, h2, h3⟩ := hk
  have hkl : k < sa.length := by
    have := hA.pos.lt_total hi h2
    rw [hA.nnz] at this
    omega
  unfold rowDot
  have : ∀ p, (sa.set k (sa.getD k 0 + v)).getD p 0 * x (A.ja.getD p 0) = sa.getD p 0 * x (A.ja.getD p 0) + if p = k then v * x j else 0 := by
    intro p
    rw [getD_addAt hkl]
    split
    · subst p; rw [h3]; ring
    · ring
  simp only [this]
  rw [Finset.sum_add_distrib, Finset.sum_ite_eq']
  congr 1
  by_cases hr : r = i
  · subst hr
    rw [if_pos rfl, if_pos (Finset.mem_Ico.2 ⟨h1, h2⟩)]
  · rw [if_neg hr, if_neg]
    intro hmem
    rw [Finset.mem_Ico] at hmem
    by_cases hrm : r < A.m
    · exact hr (hA.pos.row_unique hrm hi hmem.1 hmem.2 h1 h2)
    · have : A.ia.getD (r + 1) 0 = 0 := by
        rw [List.getD_eq_getElem?_getD, List.getElem?_eq_none (by rw [hA.len]; omega)]
        rfl
      omega

theorem addSa_res {A : Csr} (hA : MatOk A) {s : Sys} (hs : SysOk A s) {i j k : Nat} (hk : ElmAt A i j k) (v : Rat) :
    ∃ s', addSa k v s = .ok s' ∧ SysOk A s' ∧ s'.b = s.b ∧ ∀ xr : XR, Res A s' xr = Res A s xr + if xr.2 = i then -(v * xr.1 j) else 0 := by
  have hkl : k < s.sa.length := by
    have := hA.pos.lt_total hk.1 hk.2.2.2.1
    rw [hA.nnz] at this
    rw [hs.1]; exact this
  refine ⟨{ s with sa := s.sa.set k (s.sa.getD k 0 + v) }, ?_, ⟨by simp [hs.1], hs.2⟩, rfl, fun xr => ?_⟩
  · unfold addSa
    rw [addAt_ok hkl]
    rfl
  · unfold Res
    simp only [rowDot_set hA hs.1 hk]
    split <;> ring

theorem addB_res {A : Csr} {s : Sys} (hs : SysOk A s) {i : Nat} (hi : i < A.m) (v : Rat) :
    ∃ s', addB i v s = .ok s' ∧ SysOk A s' ∧ (∀ j, j ≠ i → s'.b.getD j 0 = s.b.getD j 0) ∧
      ∀ xr : XR, Res A s' xr = Res A s xr + if xr.2 = i then v else 0 := by
  have hil : i < s.b.length := by rw [hs.2]; exact hi
  refine ⟨{ s with b := s.b.set i (s.b.getD i 0 + v) }, ?_, ⟨hs.1, by simp [hs.2]⟩, fun j hj => ?_, fun xr => ?_⟩
  · unfold addB
    rw [addAt_ok hil]
    rfl
  · simp only [getD_addAt hil, if_neg hj, add_zero]
  · unfold Res
    simp only [getD_addAt hil]
    ring

theorem vectorZero_ok {n : Nat} {v : List Rat} (h : n ≤ v.length) :
    ∃ v', vectorZero n v = .ok v' ∧ v'.length = v.length ∧ ∀ i, i < n → v'.getD i 0 = 0 := by
  refine ⟨_, vectorZero_zeroes n v h, by simp; omega, fun i hi => ?_⟩
  rw [List.getD_eq_getElem?_getD, List.getElem?_append_left (by simpa using hi)]
  simp [hi]

/-- A row sum collapses when only one row is looked at. -/
theorem sum_rows_ite (n r : Nat) (u : Nat → Nat → Rat) (p q : Nat → Nat) :
    ∑ c ∈ Finset.range n, ∑ i ∈ Finset.Ico (p c) (q c), (if r = c then u c i else 0) = if r < n then ∑ i ∈ Finset.Ico (p r) (q r), u r i else 0 := by
  have : ∀ c ∈ Finset.range n, ∑ i ∈ Finset.Ico (p c) (q c), (if r = c then u c i else 0) = if r = c then ∑ i ∈ Finset.Ico (p r) (q r), u r i else 0 := by
    intro c _
    by_cases h : r = c
    · subst h; simp
    · simp [h]
  rw [Finset.sum_congr rfl this, Finset.sum_ite_eq]
  simp only [Finset.mem_range]

/-- Summing row by row over a compressed structure. -/
theorem sum_rows {n : Nat} {pos : List Nat} (hp : RowPos n pos) (u : Nat → Rat) :
    ∑ c ∈ Finset.range n, ∑ i ∈ Finset.Ico (pos.getD c 0) (pos.getD (c + 1) 0), u i = ∑ i ∈ Finset.range (pos.getD n 0), u i := by
  have : ∀ k, k ≤ n → ∑ c ∈ Finset.range k, ∑ i ∈ Finset.Ico (pos.getD c 0) (pos.getD (c + 1) 0), u i = ∑ i ∈ Finset.range (pos.getD k 0), u i := by
    intro k hk
    induction k with
    | zero => rw [hp.get_zero]; simp
    | succ k ih =>
      rw [Finset.sum_range_succ, ih (by omega)]
      simp only [Finset.range_eq_Ico]
      exact Finset.sum_Ico_consecutive _ (Nat.zero_le _) (hp.le (by omega))
  exact this n (le_refl _)

end Opm.IfsTpfa
