import Verif.Proofs.SparseSys
/-!
# C12, C13: compressed sparse row matrices

`Graph.block ja ia r` is row `r`: the entries `ja[ia[r]], …, ja[ia[r+1]-1]`.
-/

namespace Opm.SparseSys
open Opm Opm.Graph Opm.Bucket

/-- **C12.** Count the entries of each row, convert counts to pointers, then push the entries in any
order `items` compatible with the counts.  For every such sequence, every interleaving of rows and
any initial contents of the allocated memory: no access is out of bounds, no assertion fails, the row
pointers start at 0 and end at the number of entries, which is the length of `ja`, and row `r` contains
exactly the columns pushed for row `r`, in push order. -/
theorem csr_construction (junk : Nat → Nat) (m : Nat) (counted : List Nat) (items : List (Nat × Nat)) (hm : 0 < m)
    (hne : items ≠ []) (hcount : counted.Perm (items.map Prod.fst)) (hrow : ∀ p ∈ items, p.1 < m) :
    ∃ A, build junk m counted items = .ok A ∧ A.m = m ∧ A.nnz = items.length ∧ A.ja.length = items.length ∧
      A.ia.length = m + 1 ∧ A.ia[0]? = some 0 ∧ A.ia[m]? = some items.length ∧
      (∀ i a b, A.ia[i]? = some a → A.ia[i + 1]? = some b → a ≤ b) ∧
      ∀ r : Nat, r < m → block A.ja A.ia r = (items.filter (fun p => p.1 = r)).map Prod.snd := by
  have htot : start items m = items.length := start_total _ _ hrow
  have hlen : (rows m items).flatten.length = items.length := by rw [← start_eq, htot]
  refine ⟨_, build_ok junk hm hne hcount hrow, rfl, rfl, hlen, ?_, ?_, ?_, ?_, ?_⟩
  · simp only [boundaries_length, rows_length]
  · exact boundaries_rows_get m items (Nat.zero_le _)
  · rw [boundaries_rows_get m items (Nat.le_refl _), htot]
  · intro i a b ha hb
    simp only at ha hb
    have hi : i + 1 < (boundaries 0 (rows m items)).length := (List.getElem?_eq_some_iff.1 hb).1
    rw [boundaries_length, rows_length] at hi
    rw [boundaries_rows_get m items (by omega)] at ha hb
    have := start_mono items (a := i) (b := i + 1) (by omega)
    cases ha; cases hb; exact this
  · intro r hr
    simp only
    have e : block (rows m items).flatten (boundaries 0 (rows m items)) r = rowOf items r := by
      have := block_eq (rows m items) [] (i := r) (C := rowOf items r) (rows_get hr)
      simpa using this
    rw [e]
    unfold rowOf
    rw [← List.filterMap_eq_map', ← List.filterMap_eq_filter, List.filterMap_filterMap]
    congr 1
    funext p
    by_cases h : p.1 = r <;> simp [h, Option.guard]

/-- The counting order may differ from the push order: two rows, entries counted row by row but pushed
interleaved. -/
example : (build (fun _ => 99) 2 [0, 0, 1, 1] [(1, 5), (0, 7), (1, 3), (0, 2)]) =
    .ok { m := 2, nnz := 4, ia := [0, 2, 4], ja := [7, 2, 5, 3] } := by decide +kernel

/-- **C13, sorting.** For every well-formed matrix, `csrmatrix_sortrows` makes no invalid access, keeps
the row pointers (they are an input only), and makes every row a nondecreasing rearrangement of what it
was; everything outside the rows is untouched. -/
theorem sortrows_sorts (m nc : Nat) (ia ja : List Nat) (wf : CSR m nc ia ja) :
    ∃ ja', sortrows m ia ja = .ok ja' ∧ ja'.length = ja.length ∧
      (∀ r : Nat, r < m → (block ja' ia r).Perm (block ja ia r) ∧ (block ja' ia r).Pairwise (· ≤ ·)) ∧
      (∀ k : Nat, (∀ a, ia[0]? = some a → k < a) ∨ (∀ b, ia[m]? = some b → b ≤ k) → ja'[k]? = ja[k]?) := by
  obtain ⟨ja', e, hl, hb, h0, hm⟩ := sortrows_ok wf
  refine ⟨ja', e, hl, fun r hr => ?_, fun k hk => ?_⟩
  · rw [hb r hr]
    exact ⟨List.perm_insertionSort _ _, List.pairwise_insertionSort _ _⟩
  · rcases hk with hk | hk
    · have := hk _ (ia_get wf (Nat.zero_le _))
      have h1 : ∀ l : List Nat, l[k]? = (l.take (ia.getD 0 0))[k]? := by
        intro l; rw [List.getElem?_take, if_pos this]
      rw [h1 ja', h1 ja, h0]
    · have := hk _ (ia_get wf (Nat.le_refl _))
      have h1 : ∀ l : List Nat, l[k]? = (l.drop (ia.getD m 0))[k - ia.getD m 0]? := by
        intro l; rw [List.getElem?_drop]; congr 1; omega
      rw [h1 ja', h1 ja, hm]

/-- Entry `k` of `ja` belongs to row `i`. -/
def InRow (ia : List Nat) (i k : Nat) : Prop := ∃ a b, ia[i]? = some a ∧ ia[i + 1]? = some b ∧ a ≤ k ∧ k < b

theorem mem_block_iff {m nc : Nat} {ia ja : List Nat} (wf : CSR m nc ia ja) {i j : Nat} (hi : i < m) :
    j ∈ block ja ia i ↔ ∃ k, InRow ia i k ∧ ja[k]? = some j := by
  unfold block InRow
  rw [ia_get wf (by omega), ia_get wf (i := i + 1) hi]
  simp only
  constructor
  · intro h
    obtain ⟨t, ht⟩ := List.getElem?_of_mem h
    rw [List.getElem?_take] at ht
    split at ht
    · rw [List.getElem?_drop] at ht
      exact ⟨_, ⟨_, _, rfl, rfl, by omega, by omega⟩, ht⟩
    · cases ht
  · rintro ⟨k, ⟨a, b, ha, hb, h1, h2⟩, hk⟩
    cases ha; cases hb
    apply List.mem_of_getElem? (i := k - ia.getD i 0)
    rw [List.getElem?_take, if_pos (by omega), List.getElem?_drop, ← hk]
    congr 1; omega

/-- **C13, lookup.** If row `i` of a well-formed matrix is sorted, `csrmatrix_elm_index(i, j)` returns a
position inside row `i` holding `j` whenever there is one, and otherwise stops at its assertion; it never
reads outside `ja`. -/
theorem elm_index_correct (m nc : Nat) (ia ja : List Nat) (wf : CSR m nc ia ja) (i j : Nat) (hi : i < m)
    (hsorted : (block ja ia i).Pairwise (· ≤ ·)) :
    (j ∈ block ja ia i → ∃ k, elmIndex i j ia ja = .ok k ∧ InRow ia i k ∧ ja[k]? = some j) ∧
      (j ∉ block ja ia i → elmIndex i j ia ja = .error .assertFail) := by
  have h1 := ia_mono wf (i := i) (j := i + 1) (by omega) hi
  have h2 := ia_bound wf (i := i + 1) hi
  have hs : ∀ p k x y : Nat, ia.getD i 0 ≤ p → p ≤ k → k < ia.getD (i + 1) 0 → ja[p]? = some x → ja[k]? = some y → x ≤ y := by
    intro p k x y hp hpk hk hx hy
    rcases Nat.eq_or_lt_of_le hpk with rfl | hlt
    · rw [hx] at hy; cases hy; exact Nat.le_refl _
    · unfold block at hsorted
      rw [ia_get wf (by omega), ia_get wf (i := i + 1) hi] at hsorted
      simp only at hsorted
      rw [List.pairwise_iff_getElem] at hsorted
      have hlen : ((ja.drop (ia.getD i 0)).take (ia.getD (i + 1) 0 - ia.getD i 0)).length = ia.getD (i + 1) 0 - ia.getD i 0 := by
        rw [List.length_take, List.length_drop]; omega
      have := hsorted (p - ia.getD i 0) (k - ia.getD i 0) (by rw [hlen]; omega) (by rw [hlen]; omega) (by omega)
      have hpl : p < ja.length := by omega
      have hkl : k < ja.length := by omega
      have ex : ja[p] = x := by
        have := List.getElem?_eq_getElem hpl
        rw [this] at hx; exact Option.some.inj hx
      have ey : ja[k] = y := by
        have := List.getElem?_eq_getElem hkl
        rw [this] at hy; exact Option.some.inj hy
      simp only [List.getElem_take, List.getElem_drop] at this
      have e1 : ia.getD i 0 + (p - ia.getD i 0) = p := by omega
      have e2 : ia.getD i 0 + (k - ia.getD i 0) = k := by omega
      simp only [e1, e2, ex, ey] at this
      exact this
  obtain ⟨r, e, hr1, hr2⟩ := bsearch_ok (j := j) (ia.getD (i + 1) 0 - ia.getD i 0 + 1) _ _ h2 (by omega) hs
  have hev : elmIndex i j ia ja = r.elim (.error .assertFail) .ok := by
    unfold elmIndex
    rw [rd_of_getElem? (ia_get wf (by omega)), bind_ok, rd_of_getElem? (ia_get wf (i := i + 1) hi), bind_ok, e, bind_ok]
    cases r <;> rfl
  rw [mem_block_iff wf hi, hev]
  constructor
  · rintro ⟨k, ⟨a, b, ha, hb, hk1, hk2⟩, hk⟩
    rw [ia_get wf (by omega)] at ha
    rw [ia_get wf (i := i + 1) hi] at hb
    cases ha; cases hb
    cases r with
    | none => exact absurd hk (hr2 rfl k hk1 hk2)
    | some q =>
      obtain ⟨g1, g2, g3⟩ := hr1 q rfl
      exact ⟨q, rfl, ⟨_, _, ia_get wf (by omega), ia_get wf (i := i + 1) hi, g1, g2⟩, g3⟩
  · intro hno
    cases r with
    | none => rfl
    | some q =>
      obtain ⟨g1, g2, g3⟩ := hr1 q rfl
      exact absurd ⟨q, ⟨_, _, ia_get wf (by omega), ia_get wf (i := i + 1) hi, g1, g2⟩, g3⟩ hno

theorem exists_bound (l : List Nat) : ∃ N, ∀ x ∈ l, x < N := by
  induction l with
  | nil => exact ⟨0, by simp⟩
  | cons a l ih =>
    obtain ⟨N, h⟩ := ih
    refine ⟨max N (a + 1), fun x hx => ?_⟩
    rcases List.mem_cons.1 hx with rfl | hx
    · omega
    · have := h x hx; omega

/-- **C13, combined.** After `csrmatrix_sortrows`, every stored element `(i, j)` of the original matrix is found. -/
theorem sortrows_then_elm_index (m nc : Nat) (ia ja : List Nat) (wf : CSR m nc ia ja) :
    ∃ ja', sortrows m ia ja = .ok ja' ∧ ∀ i j : Nat, i < m → j ∈ block ja ia i →
      ∃ k, elmIndex i j ia ja' = .ok k ∧ InRow ia i k ∧ ja'[k]? = some j := by
  obtain ⟨ja', e, hl, hrow, _⟩ := sortrows_sorts m nc ia ja wf
  obtain ⟨N, hN⟩ := exists_bound ja'
  have wf' : CSR m N ia ja' := {
    len := wf.len
    mono := wf.mono
    bound := fun a ha => by rw [hl]; exact wf.bound a ha
    range := fun a e w _ _ hw => hN w (List.mem_of_getElem? hw) }
  refine ⟨ja', e, fun i j hi hj => ?_⟩
  exact (elm_index_correct m _ ia ja' wf' i j hi (hrow i hi).2).1 ((hrow i hi).1.mem_iff.2 hj)

/-- A matrix with an empty row, an unsorted row and a repeated column meets the hypotheses. -/
example : CSR 3 6 [0, 3, 3, 5] [4, 1, 4, 5, 0] where
  len := rfl
  mono := by
    intro i a b ha hb
    rcases i with _ | _ | _ | i <;> simp at ha hb <;> omega
  bound := by intro a h; simp at h; simp; omega
  range := by
    intro a e w h he hw
    simp at h
    have h5 : e < 5 := by omega
    rcases e with _ | _ | _ | _ | _ | e <;> simp at hw <;> omega

example : sortrows 3 [0, 3, 3, 5] [4, 1, 4, 5, 0] = .ok [1, 4, 4, 0, 5] ∧
    elmIndex 2 5 [0, 3, 3, 5] [1, 4, 4, 0, 5] = .ok 4 := by decide +kernel

/-- `vector_zero(n, v)` sets the first `n` entries to 0, the others stay. -/
theorem vectorZero_zeroes (n : Nat) (v : List Rat) (h : n ≤ v.length) :
    vectorZero n v = .ok (List.replicate n 0 ++ v.drop n) := by
  obtain ⟨t, ht, hP, _⟩ := loop_inv (n := n) (s := v) (f := fun i v => wr v i 0)
    (fun k t => t = List.replicate k 0 ++ v.drop k ∧ k ≤ n) ⟨rfl, by omega⟩
    (by
      rintro k t hk ⟨rfl, _⟩
      refine ⟨_, wr_ok (by simp; omega), ?_, hk⟩
      rw [List.set_append_right _ _ (by simp), List.length_replicate, Nat.sub_self,
        List.drop_eq_getElem_cons (by omega), List.set_cons_zero, List.replicate_succ', List.append_assoc]
      rfl)
  unfold vectorZero
  rw [ht, hP]

end Opm.SparseSys
