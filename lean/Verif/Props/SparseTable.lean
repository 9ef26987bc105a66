import Verif.Proofs.SparseTable
/-!
# C14: SparseTable behaves as a list of rows
-/

namespace Opm.SparseTable

open Opm.SparseTableSpec

variable {α : Type _}

/-- **C14.**  Every history of `assign`/constructor, `allocate`, `appendRow`, `clear` and element
writes through a mutable row: the history completes iff the specification on plain lists of rows
accepts each call, and then `size`, `empty`, `dataSize`, `rowSize` and `operator[]` are those of the
specified list of rows, at every index (out-of-range rows are refused). -/
theorem C14_sparsetable_refines_rows (dflt : α) (ops : List (Op α)) :
    match specRun dflt [] ops with
    | some rows => ∃ t, run dflt new ops = .ok t ∧
        size t = rows.length ∧
        (empty t = true ↔ rows = []) ∧
        dataSize t = (rows.map (fun r => (r.length : Int))).sum ∧
        (∀ i : Int, getRow i t =
          if hi : 0 ≤ i ∧ i.toNat < rows.length then .ok (rows[i.toNat]'hi.2) else .error .assertFail) ∧
        (∀ i : Int, rowSize i t =
          if hi : 0 ≤ i ∧ i.toNat < rows.length then .ok ((rows[i.toNat]'hi.2).length : Int)
          else .error .assertFail)
    | none => ∀ t, run dflt new ops ≠ .ok t := by
  have := run_refines dflt ops new [] rep_new
  cases hs : specRun dflt [] ops with
  | none => rw [hs] at this; exact this
  | some rows =>
    rw [hs] at this
    obtain ⟨t, e, h⟩ := this
    refine ⟨t, e, (rep_size h).1, (rep_size h).2, ?_, rep_getRow h, ?_⟩
    · simp only [dataSize, h.1]
      clear hs h e
      induction rows with
      | nil => rfl
      | cons r rs ih => simp at ih ⊢; omega
    · intro i
      have hsz := (rep_size h).1
      split
      · rename_i hi
        obtain ⟨k, rfl⟩ : ∃ k : Nat, i = k := ⟨i.toNat, by omega⟩
        simp only [Int.toNat_natCast] at hi ⊢
        obtain ⟨e1, e2⟩ := rep_starts h hi.2
        have hc : check (decide ((k : Int) ≥ 0 ∧ (k : Int) < size t)) = .ok () := by
          apply check_ok; rw [hsz]; simp; omega
        have hk1 : rdI t.rowStart ((k : Int) + 1) = rd t.rowStart (k + 1) := by
          rw [← rdI_natCast]; norm_cast
        unfold rowSize
        rw [hc]
        simp only [bind_ok, rdI_natCast, e1, hk1, e2]
        rw [take_succ_flatten rows k hi.2]
        congr 1
        simp only [List.length_append]; omega
      · rename_i hi
        have hc : check (decide (i ≥ 0 ∧ i < size t)) = .error .assertFail := by
          unfold check
          rw [if_neg]
          rw [hsz]; simp; omega
        unfold rowSize
        rw [hc]; rfl

/-- Equality of two tables built by histories is equality of their lists of rows. -/
theorem C14_equality_is_row_equality [DecidableEq α] (dflt : α) (ops₁ ops₂ : List (Op α))
    (t₁ t₂ : Table α) (h₁ : run dflt new ops₁ = .ok t₁) (h₂ : run dflt new ops₂ = .ok t₂) :
    beq t₁ t₂ = true ↔
      size t₁ = size t₂ ∧ ∀ i : Int, getRow i t₁ = getRow i t₂ := by
  have r₁ := run_refines dflt ops₁ new [] rep_new
  have r₂ := run_refines dflt ops₂ new [] rep_new
  obtain ⟨rows₁, e₁⟩ : ∃ rows, Rep t₁ rows := by
    split at r₁
    · obtain ⟨t, e, h⟩ := r₁; rw [h₁] at e; cases e; exact ⟨_, h⟩
    · exact absurd h₁ (r₁ _)
  obtain ⟨rows₂, e₂⟩ : ∃ rows, Rep t₂ rows := by
    split at r₂
    · obtain ⟨t, e, h⟩ := r₂; rw [h₂] at e; cases e; exact ⟨_, h⟩
    · exact absurd h₂ (r₂ _)
  have hb : beq t₁ t₂ = true ↔ t₁ = t₂ := by
    cases t₁; cases t₂; simp [beq]
  rw [hb]
  constructor
  · rintro rfl; exact ⟨rfl, fun _ => rfl⟩
  · rintro ⟨hs, hr⟩
    rw [(rep_size e₁).1, (rep_size e₂).1] at hs
    have hlen : rows₁.length = rows₂.length := by omega
    have : rows₁ = rows₂ := by
      apply List.ext_getElem hlen
      intro i h1 h2
      have := hr i
      rw [rep_getRow e₁, rep_getRow e₂, dif_pos ⟨by omega, by simpa using h1⟩,
        dif_pos ⟨by omega, by simpa using h2⟩] at this
      cases this' : rows₁[i]
      all_goals (simp at this; rw [← this']; exact this)
    subst this
    cases t₁; cases t₂
    simp only [Table.mk.injEq]
    exact ⟨e₁.1.trans e₂.1.symm, e₁.2.trans e₂.2.symm⟩

example : run 0 new [.assign [1, 2, 3] [2, 0, 1], .appendRow [7, 8], .setElem 2 0 9] =
    .ok { data := [1, 2, 9, 7, 8], rowStart := [0, 2, 2, 3, 5] } := by decide

/-- **Finding.**  `assign` replaces the data before it validates the row sizes, so a refused `assign`
leaves a table whose rows no longer tile its data (no strong exception guarantee): here `dataSize()`
is 3 while the single row still has size 1. -/
theorem C14_failed_assign_corrupts :
    let t := appendRow [5] (new : Table Nat)
    (assign [1, 2, 3] [] t).2 = .error .thrown ∧
      dataSize (assign [1, 2, 3] [] t).1 = 3 ∧ size (assign [1, 2, 3] [] t).1 = 1 ∧
      rowSize 0 (assign [1, 2, 3] [] t).1 = .ok 1 := by decide

end Opm.SparseTable
