import Verif.Spec.SparseTable
/-!
# Lemmas for C14
-/

namespace Opm.SparseTable

open Opm.SparseTableSpec

variable {α : Type _}

/-- Row starts of a list of rows, beginning at `acc`. -/
def starts : Int → List (List α) → List Int
  | acc, [] => [acc]
  | acc, r :: rs => acc :: starts (acc + r.length) rs

/-- The table `t` represents the rows `rows`. -/
def Rep (t : Table α) (rows : List (List α)) : Prop :=
  t.data = rows.flatten ∧ t.rowStart = if rows = [] then [] else starts 0 rows

theorem starts_length (acc : Int) (rows : List (List α)) :
    (starts acc rows).length = rows.length + 1 := by
  induction rows generalizing acc with
  | nil => rfl
  | cons r rs ih => simp [starts, ih]

theorem starts_get (acc : Int) (rows : List (List α)) (i : Nat) (h : i ≤ rows.length) :
    (starts acc rows)[i]? = some (acc + ((rows.take i).flatten.length : Int)) := by
  induction rows generalizing acc i with
  | nil => obtain rfl : i = 0 := by simpa using h
           simp [starts]
  | cons r rs ih =>
    cases i with
    | zero => simp [starts]
    | succ i =>
      simp only [starts, List.getElem?_cons_succ]
      rw [ih _ _ (by simpa using h)]
      simp; omega

theorem starts_append (acc : Int) (rows : List (List α)) (r : List α) :
    starts acc (rows ++ [r]) = starts acc rows ++ [acc + ((rows ++ [r]).flatten.length : Int)] := by
  induction rows generalizing acc with
  | nil => simp [starts]
  | cons q rs ih =>
    simp only [List.cons_append, starts, ih]
    simp; omega

theorem partialSum_cut (acc : Int) (sizes : List Int) (d : List α) (h : ∀ n ∈ sizes, 0 ≤ n)
    (hs : sizes.sum ≤ d.length) :
    acc :: partialSum acc sizes = starts acc (cut (sizes.map Int.toNat) d) ∧
      (sizes.sum = d.length → (cut (sizes.map Int.toNat) d).flatten = d) := by
  induction sizes generalizing acc d with
  | nil =>
    refine ⟨rfl, ?_⟩
    intro h0
    have : d = [] := by
      simp at h0
      exact List.length_eq_zero_iff.1 (by omega)
    simp [cut, this]
  | cons n ns ih =>
    have hn : 0 ≤ n := h n List.mem_cons_self
    have hns : ∀ m ∈ ns, 0 ≤ m := fun m hm => h m (List.mem_cons_of_mem _ hm)
    have hnn : 0 ≤ ns.sum := by
      clear ih h hs
      induction ns with
      | nil => simp
      | cons m ms ih2 =>
        have := hns m List.mem_cons_self
        have := ih2 (fun k hk => hns k (List.mem_cons_of_mem _ hk))
        simp; omega
    have hlen : n.toNat ≤ d.length := by simp at hs; omega
    have hs' : ns.sum ≤ (d.drop n.toNat).length := by
      simp at hs ⊢; omega
    obtain ⟨e1, e2⟩ := ih (acc + n) (d.drop n.toNat) hns hs'
    have hl : ((d.take n.toNat).length : Int) = n := by
      rw [List.length_take]; omega
    constructor
    · simp only [partialSum, List.map_cons, cut, starts, hl]
      rw [← e1]
    · intro h0
      have := e2 (by simp at h0 ⊢; omega)
      simp [cut, this]

theorem getLastD_starts (rows : List (List α)) (acc : Int) :
    (starts acc rows).getLastD 0 = acc + (rows.flatten.length : Int) := by
  induction rows generalizing acc with
  | nil => simp [starts]
  | cons r rs ih =>
    have h := ih (acc + r.length)
    cases hh : starts (acc + (r.length : Int)) rs with
    | nil => have := starts_length (acc + (r.length : Int)) rs; rw [hh] at this; simp at this
    | cons a as =>
      rw [hh] at h
      simp only [starts, hh]
      rw [List.getLastD_cons, List.getLastD_cons] at *
      simp at h ⊢
      omega

theorem flatten_cut_length (sizes : List Nat) (d : List α) (h : sizes.sum ≤ d.length) :
    (cut sizes d).flatten.length = sizes.sum := by
  induction sizes generalizing d with
  | nil => simp [cut]
  | cons n ns ih =>
    simp only [cut, List.flatten_cons, List.length_append, List.sum_cons]
    rw [ih _ (by simp at h ⊢; omega)]
    simp at h ⊢; omega

theorem sum_toNat (s : List Int) (h : ∀ n ∈ s, 0 ≤ n) : ((s.map Int.toNat).sum : Int) = s.sum := by
  induction s with
  | nil => simp
  | cons n ns ih =>
    have hn := h n List.mem_cons_self
    have := ih (fun m hm => h m (List.mem_cons_of_mem _ hm))
    simp; omega

/-- If the announced sizes fit the data, the row starts are set; otherwise the call throws. -/
theorem setRowStarts_spec (sizes : List Int) (t : Table α) :
    (sizes ≠ [] ∧ (∀ n ∈ sizes, 0 ≤ n) ∧ sizes.sum = t.data.length →
      (setRowStartsFromSizes sizes t).2 = .ok () ∧
      Rep (setRowStartsFromSizes sizes t).1 (cut (sizes.map Int.toNat) t.data)) ∧
    (¬ (sizes ≠ [] ∧ (∀ n ∈ sizes, 0 ≤ n) ∧ sizes.sum = t.data.length) →
      (setRowStartsFromSizes sizes t).2 = .error .thrown) := by
  have hany : (sizes.any (· < 0)) = true ↔ ¬ (∀ n ∈ sizes, 0 ≤ n) := by simp
  have hnil : sizes.length < 1 ↔ sizes = [] := by
    rw [← List.length_eq_zero_iff]; omega
  have hlast : (0 :: partialSum 0 sizes).getLastD 0 = sizes.sum := by
    suffices ∀ acc, (acc :: partialSum acc sizes).getLastD 0 = acc + sizes.sum by
      simpa using this 0
    clear hany hnil
    induction sizes with
    | nil => intro acc; simp [partialSum]
    | cons n ns ih =>
      intro acc
      have := ih (acc + n)
      simp only [partialSum]
      rw [List.getLastD_cons, List.getLastD_cons] at *
      simp at this ⊢
      omega
  constructor
  · rintro ⟨h1, h2, h3⟩
    have hp := partialSum_cut 0 sizes t.data h2 (by omega)
    unfold setRowStartsFromSizes
    rw [if_neg (by rw [hnil]; exact h1), if_neg (by rw [hany]; exact fun h => h h2)]
    simp only [hlast, h3, ne_eq, not_true_eq_false, if_false, true_and]
    refine ⟨(hp.2 h3).symm, ?_⟩
    have hne : cut (sizes.map Int.toNat) t.data ≠ [] := by
      cases sizes with
      | nil => exact absurd rfl h1
      | cons n ns => simp [cut]
    rw [if_neg hne]
    exact hp.1
  · intro h
    unfold setRowStartsFromSizes
    split
    · rfl
    · rename_i h1
      split
      · rfl
      · rename_i h2
        rw [hnil] at h1
        have h2' : ∀ n ∈ sizes, 0 ≤ n := by
          rw [hany] at h2; exact Classical.not_not.1 h2
        have h3 : sizes.sum ≠ t.data.length := fun h3 => h ⟨h1, h2', h3⟩
        simp only [hlast]
        rw [if_pos (fun e => h3 e.symm)]

theorem resize_eq_padTo (dflt : α) (n : Nat) (l : List α) : resize dflt n l = padTo dflt n l := by
  unfold resize padTo
  rw [List.take_append]
  simp

theorem rep_new : Rep (new : Table α) [] := ⟨rfl, rfl⟩

theorem rep_size {t : Table α} {rows : List (List α)} (h : Rep t rows) :
    size t = rows.length ∧ (empty t = true ↔ rows = []) := by
  obtain ⟨h1, h2⟩ := h
  cases rows with
  | nil => simp [size, empty, h2]
  | cons r rs =>
    have hlen : t.rowStart.length = rs.length + 2 := by
      rw [h2, if_neg (by simp), starts_length]; simp
    have hne : t.rowStart ≠ [] := by intro e; rw [e] at hlen; simp at hlen
    have : empty t = false := by simp [empty, hne]
    simp [size, this, hlen]; omega

theorem rep_starts {t : Table α} {rows : List (List α)} (h : Rep t rows) {i : Nat}
    (hi : i < rows.length) :
    rd t.rowStart i = .ok ((rows.take i).flatten.length : Int) ∧
    rd t.rowStart (i + 1) = .ok ((rows.take (i + 1)).flatten.length : Int) := by
  obtain ⟨_, h2⟩ := h
  have hne : rows ≠ [] := by intro e; subst e; simp at hi
  rw [h2, if_neg hne, rd_eq_ok, rd_eq_ok, starts_get _ _ _ (by omega), starts_get _ _ _ (by omega)]
  simp

theorem take_succ_flatten (rows : List (List α)) (i : Nat) (hi : i < rows.length) :
    (rows.take (i + 1)).flatten = (rows.take i).flatten ++ rows[i] := by
  rw [List.take_add_one, List.flatten_append]
  simp only [List.getElem?_eq_getElem hi, Option.toList_some, List.flatten_cons, List.flatten_nil,
    List.append_nil]

theorem flatten_split (rows : List (List α)) (i : Nat) (hi : i < rows.length) :
    rows.flatten = (rows.take i).flatten ++ rows[i] ++ (rows.drop (i + 1)).flatten := by
  conv => lhs; rw [← List.take_append_drop i rows, List.flatten_append]
  rw [List.drop_eq_getElem_cons hi, List.flatten_cons, List.append_assoc]

theorem rep_getRow {t : Table α} {rows : List (List α)} (h : Rep t rows) (i : Int) :
    getRow i t = if hi : 0 ≤ i ∧ i.toNat < rows.length then .ok (rows[i.toNat]'hi.2)
      else .error .assertFail := by
  have hsz := (rep_size h).1
  split
  · rename_i hi
    obtain ⟨k, rfl⟩ : ∃ k : Nat, i = k := ⟨i.toNat, by omega⟩
    simp only [Int.toNat_natCast] at hi ⊢
    obtain ⟨e1, e2⟩ := rep_starts h hi.2
    have hfs := flatten_split rows k hi.2
    have ht := take_succ_flatten rows k hi.2
    have hc : check (decide ((k : Int) ≥ 0 ∧ (k : Int) < size t)) = .ok () := by
      apply check_ok; rw [hsz]; simp; omega
    have hk1 : rdI t.rowStart ((k : Int) + 1) = rd t.rowStart (k + 1) := by
      rw [← rdI_natCast]; norm_cast
    unfold getRow
    rw [hc]
    simp only [bind_ok, rdI_natCast, e1, hk1, e2]
    rw [if_pos, h.1]
    · congr 1
      rw [ht, hfs]
      have e3 : ((((rows.take k).flatten ++ rows[k]).length : Int)
          - ((rows.take k).flatten.length : Int)).toNat = rows[k].length := by
        simp only [List.length_append]; omega
      rw [e3, Int.toNat_natCast, List.append_assoc, List.drop_left, List.take_left]
    · rw [ht, h.1, hfs]
      simp only [List.length_append]
      omega
  · rename_i hi
    have hc : check (decide (i ≥ 0 ∧ i < size t)) = .error .assertFail := by
      unfold check
      rw [if_neg]
      rw [hsz]; simp; omega
    unfold getRow
    rw [hc]; rfl

theorem starts_congr (acc : Int) (r s : List (List α)) (h : r.map List.length = s.map List.length) :
    starts acc r = starts acc s := by
  induction r generalizing acc s with
  | nil => cases s with
    | nil => rfl
    | cons _ _ => simp at h
  | cons a r ih => cases s with
    | nil => simp at h
    | cons b s =>
      simp at h
      simp only [starts, h.1, ih _ _ h.2]

theorem setAt_flatten (rows : List (List α)) (i j : Nat) (x : α) (hi : i < rows.length)
    (hj : j < rows[i].length) :
    (setAt rows i j x).flatten = rows.flatten.set ((rows.take i).flatten.length + j) x ∧
    (setAt rows i j x).map List.length = rows.map List.length := by
  unfold setAt
  induction rows generalizing i with
  | nil => simp at hi
  | cons r rs ih =>
    cases i with
    | zero => simp at hj ⊢; rw [List.set_append]; simp [hj]
    | succ i =>
      obtain ⟨h1, h2⟩ := ih i (by simpa using hi) (by simpa using hj)
      constructor
      · simp only [List.modify_succ_cons, List.flatten_cons, h1]
        rw [List.set_append, if_neg (by simp; omega)]
        congr 2
        simp; omega
      · simp at h2 ⊢; exact h2

theorem run_refines (dflt : α) : ∀ (ops : List (Op α)) (t : Table α) (rows : List (List α)), Rep t rows →
    match specRun dflt rows ops with
    | some rows' => ∃ t', run dflt t ops = .ok t' ∧ Rep t' rows'
    | none => ∀ t', run dflt t ops ≠ .ok t' := by
  intro ops
  induction ops with
  | nil => intro t rows h; exact ⟨t, rfl, h⟩
  | cons o os ih =>
    intro t rows h
    have hstep : match specStep dflt rows o with
        | some rows' => ∃ t', step dflt t o = .ok t' ∧ Rep t' rows'
        | none => ∃ e, step dflt t o = .error e := by
      cases o with
      | assign d s =>
        have hs := setRowStarts_spec s { t with data := d }
        by_cases hc : s ≠ [] ∧ (∀ n ∈ s, 0 ≤ n) ∧ s.sum = d.length
        · obtain ⟨e1, e2⟩ := hs.1 hc
          simp only [specStep, if_pos hc]
          exact ⟨_, by simp [step, assign, e1], e2⟩
        · have e1 := hs.2 hc
          simp only [specStep, if_neg hc]
          exact ⟨.thrown, by simp [step, assign, e1]⟩
      | allocate s =>
        have hsum : ∀ s : List Nat, (s.map (Int.ofNat ·)).sum = (s.sum : Int) := by
          intro s; induction s with
          | nil => rfl
          | cons a l ihl => simp at ihl ⊢; omega
        have hmap : ∀ s : List Nat, (s.map (Int.ofNat ·)).map Int.toNat = s := by
          intro s; induction s with
          | nil => rfl
          | cons a l ihl => simp at ihl ⊢; exact ihl
        have hs := setRowStarts_spec (s.map (Int.ofNat ·)) { t with data := resize dflt s.sum t.data }
        by_cases hc : s = []
        · subst hc
          refine ⟨.thrown, ?_⟩
          simp [step, allocate, setRowStartsFromSizes]
        · have hc' : s.map (Int.ofNat ·) ≠ [] ∧ (∀ n ∈ s.map (Int.ofNat ·), 0 ≤ n) ∧
              (s.map (Int.ofNat ·)).sum = ((resize dflt s.sum t.data).length : Int) := by
            refine ⟨by simpa using hc, ?_, ?_⟩
            · intro n hn; simp at hn; obtain ⟨a, _, rfl⟩ := hn; omega
            · rw [hsum, resize_eq_padTo]; simp [padTo]
          obtain ⟨e1, e2⟩ := hs.1 hc'
          simp only [specStep, if_pos hc]
          refine ⟨_, by simp only [step, allocate, e1, bind_ok]; rfl, ?_⟩
          rw [hmap] at e2
          rw [← h.1, ← resize_eq_padTo]
          exact e2
      | appendRow r =>
        refine ⟨appendRow r t, rfl, ?_, ?_⟩
        · simp [appendRow, h.1]
        · rw [if_neg (by simp), starts_append]
          cases rows with
          | nil =>
            have h1 := h.1
            have h2 := h.2
            simp at h1 h2
            simp [appendRow, h2, h1, starts]
          | cons q qs =>
            have h2 := h.2
            rw [if_neg (by simp)] at h2
            simp [appendRow, h.1, h2, starts]
      | clear => exact ⟨_, rfl, rfl, rfl⟩
      | setElem i j x =>
        simp only [specStep]
        have hg := rep_getRow h i
        split
        · rename_i hh
          split at hh
          · rename_i hi
            split at hh
            · rename_i hj
              cases hh
              obtain ⟨k, rfl⟩ : ∃ k : Nat, i = k := ⟨i.toNat, by omega⟩
              simp only [Int.toNat_natCast] at *
              have hi : 0 ≤ (k : Int) ∧ k < rows.length := hi
              rw [dif_pos hi] at hg
              obtain ⟨e1, _⟩ := rep_starts h hi.2
              obtain ⟨s1, s2⟩ := setAt_flatten rows k j x hi.2 hj
              have hb : (rows.take k).flatten.length + j < t.data.length := by
                rw [h.1, flatten_split rows k hi.2]
                simp only [List.length_append]; omega
              refine ⟨{ t with data := t.data.set ((rows.take k).flatten.length + j) x }, ?_, ?_, ?_⟩
              · simp only [step, setElem, hg, bind_ok, if_pos hj, rdI_natCast, e1, Int.toNat_natCast,
                  wr_ok hb]
              · simp only; rw [s1, h.1]
              · simp only
                rw [h.2, starts_congr 0 _ _ s2]
                have : setAt rows k j x = [] ↔ rows = [] := by
                  rw [← List.length_eq_zero_iff, ← List.length_eq_zero_iff]
                  simp [setAt]
                simp only [this]
            · cases hh
          · cases hh
        · rename_i hh
          split at hh
          · rename_i hi
            split at hh
            · cases hh
            · rename_i hj
              rw [dif_pos hi] at hg
              exact ⟨.ub, by simp only [step, setElem, hg, bind_ok, if_neg hj]⟩
          · rename_i hi
            rw [dif_neg hi] at hg
            exact ⟨.assertFail, by simp only [step, setElem, hg, bind_error]⟩
    simp only [specRun]
    cases hsp : specStep dflt rows o with
    | none =>
      rw [hsp] at hstep
      obtain ⟨e, he⟩ := hstep
      intro t'
      simp [run, he]
    | some rows' =>
      rw [hsp] at hstep
      obtain ⟨t', e, h'⟩ := hstep
      have := ih t' rows' h'
      simpa [run, e] using this

end Opm.SparseTable
