import Verif.Model.SparseVector
import Verif.Proofs.StdAlg
/-!
# C15: a sparse vector is a finitely supported function

Specification: the object is a declared size and the list of added entries `(index, value)`.
-/

namespace Opm.SparseVector
open Opm

variable {α : Type _}

/-- Specification of a sequence of calls: an entry is accepted iff its index is larger than all
present indices and below the declared size; `clear` makes everything empty. -/
def specRun : List (Op α) → Int × List (Int × α) → Option (Int × List (Int × α))
  | [], s => some s
  | .add x i :: ops, (sz, es) =>
    if (∀ e ∈ es, e.1 < i) ∧ i < sz then specRun ops (sz, es ++ [(i, x)]) else none
  | .clear :: ops, _ => specRun ops (0, [])

/-- Value of entry `i`: that of the (only) entry with index `i`, else the default. -/
def lookup (dflt : α) (i : Int) : List (Int × α) → α
  | [] => dflt
  | e :: es => if e.1 = i then e.2 else lookup dflt i es

/-- The model object represents the specification object. -/
structure Rep (v : Vec α) (sz : Int) (es : List (Int × α)) : Prop where
  size : v.size = sz
  data : v.data = es.map Prod.snd
  indices : v.indices = es.map Prod.fst
  sorted : (es.map Prod.fst).Pairwise (· < ·)

theorem all_lt_iff_last {es : List (Int × α)} (h : (es.map Prod.fst).Pairwise (· < ·)) (i : Int) :
    (∀ e ∈ es, e.1 < i) ↔ (es.map Prod.fst).getLast?.all (fun b => decide (i > b)) = true := by
  rcases List.eq_nil_or_concat es with rfl | ⟨l, e, rfl⟩
  · simp
  · simp only [List.concat_eq_append, List.map_append, List.map_cons, List.map_nil] at h ⊢
    rw [List.getLast?_concat]
    simp only [Option.all_some, decide_eq_true_eq, gt_iff_lt]
    rw [List.pairwise_append] at h
    constructor
    · intro h1; exact h1 e (by simp)
    · intro h1 x hx
      rcases List.mem_append.1 hx with hx | hx
      · have := h.2.2 x.1 (List.mem_map_of_mem hx) e.1 (by simp)
        omega
      · rw [List.mem_singleton] at hx; subst hx; exact h1

theorem run_refines (ops : List (Op α)) {v : Vec α} {sz : Int} {es : List (Int × α)} (h : Rep v sz es) :
    match specRun ops (sz, es) with
    | some (sz', es') => ∃ v', run ops v = .ok v' ∧ Rep v' sz' es'
    | none => run ops v = .error .assertFail := by
  induction ops generalizing v sz es with
  | nil => exact ⟨v, rfl, h⟩
  | cons op ops ih =>
    cases op with
    | clear =>
      unfold specRun run
      exact ih (v := clear v) ⟨rfl, rfl, rfl, by simp⟩
    | add x i =>
      unfold specRun run addElement
      by_cases h1 : ∀ e ∈ es, e.1 < i
      · by_cases h2 : i < sz
        · rw [if_pos ⟨h1, h2⟩]
          rw [h.indices, check_ok ((all_lt_iff_last h.sorted i).1 h1), bind_ok, h.size, check_ok (by simpa using h2), bind_ok, bind_ok]
          apply ih
          exact ⟨rfl, by simp [h.data], by simp, by
            rw [List.map_append, List.pairwise_append]
            refine ⟨h.sorted, by simp, ?_⟩
            intro a ha b hb
            obtain ⟨e, he, rfl⟩ := List.mem_map.1 ha
            simp only [List.map_cons, List.map_nil, List.mem_singleton] at hb
            subst hb
            exact h1 e he⟩
        · rw [if_neg (by tauto)]
          rw [h.indices, check_ok ((all_lt_iff_last h.sorted i).1 h1), bind_ok, h.size]
          simp [check, h2]
      · rw [if_neg (by tauto)]
        have := mt (all_lt_iff_last h.sorted i).2 h1
        rw [h.indices]
        unfold check
        rw [if_neg this]
        rfl

theorem lookup_get {dflt : α} {es : List (Int × α)} (h : (es.map Prod.fst).Pairwise (· < ·)) {k : Nat} {e : Int × α}
    (hk : es[k]? = some e) : lookup dflt e.1 es = e.2 := by
  induction es generalizing k with
  | nil => simp at hk
  | cons a es ih =>
    rw [List.map_cons, List.pairwise_cons] at h
    unfold lookup
    cases k with
    | zero => simp at hk; subst hk; simp
    | succ k =>
      simp only [List.getElem?_cons_succ] at hk
      have := h.1 e.1 (List.mem_map_of_mem (List.mem_of_getElem? hk))
      rw [if_neg (by omega)]
      exact ih h.2 hk

theorem lookup_none {dflt : α} {es : List (Int × α)} {i : Int} (h : ∀ e ∈ es, e.1 ≠ i) : lookup dflt i es = dflt := by
  induction es with
  | nil => rfl
  | cons a es ih =>
    unfold lookup
    rw [if_neg (h a (by simp))]
    exact ih (fun e he => h e (by simp [he]))

theorem element_rep {dflt : α} {v : Vec α} {sz : Int} {es : List (Int × α)} (h : Rep v sz es) (i : Int) :
    element dflt i v = if 0 ≤ i ∧ i < sz then .ok (lookup dflt i es) else .error .assertFail := by
  unfold element
  by_cases h0 : 0 ≤ i
  · by_cases h1 : i < sz
    · rw [if_pos ⟨h0, h1⟩, check_ok (by simpa using h0), bind_ok, h.size, check_ok (by simpa using h1), bind_ok]
      have hs := h.sorted
      rw [List.pairwise_iff_getElem] at hs
      obtain ⟨r, e, hr, hlo, hhi⟩ := StdAlg.lowerBound_ok (fun k => decide (k < i)) v.indices (by
        intro a b x y hab hx hy hlt
        rw [h.indices] at hx hy
        obtain ⟨ha', rfl⟩ := List.getElem?_eq_some_iff.1 hx
        obtain ⟨hb', rfl⟩ := List.getElem?_eq_some_iff.1 hy
        simp only [decide_eq_true_eq] at hlt ⊢
        rcases Nat.eq_or_lt_of_le hab with rfl | hlt'
        · exact hlt
        · have := hs a b ha' hb' hlt'; omega)
      rw [e, bind_ok]
      by_cases hlen : r = v.indices.length
      · rw [if_pos hlen]
        rw [lookup_none]
        intro e he heq
        obtain ⟨k, hk⟩ := List.getElem?_of_mem he
        have hki : v.indices[k]? = some e.1 := by rw [h.indices, List.getElem?_map, hk]; rfl
        have := hlo k e.1 (by
          have := (List.getElem?_eq_some_iff.1 hki).1
          omega) hki
        simp only [decide_eq_true_eq] at this
        omega
      · rw [if_neg hlen]
        have hrl : r < v.indices.length := by omega
        have hel : r < es.length := by rw [h.indices, List.length_map] at hrl; exact hrl
        have hre := List.getElem?_eq_getElem hel
        have hri : v.indices[r]? = some es[r].1 := by rw [h.indices, List.getElem?_map, hre]; rfl
        have hrd : v.data[r]? = some es[r].2 := by rw [h.data, List.getElem?_map, hre]; rfl
        rw [rd_of_getElem? hri, bind_ok]
        by_cases hk : es[r].1 = i
        · rw [if_pos hk, rd_of_getElem? hrd, ← hk, lookup_get h.sorted hre]
        · rw [if_neg hk, lookup_none]
          intro e he heq
          obtain ⟨k, hke⟩ := List.getElem?_of_mem he
          have hki : v.indices[k]? = some e.1 := by rw [h.indices, List.getElem?_map, hke]; rfl
          by_cases hkr : k < r
          · have := hlo k e.1 hkr hki
            simp only [decide_eq_true_eq] at this
            omega
          · have h2 := hhi r _ (Nat.le_refl _) hri
            simp only [decide_eq_false_iff_not] at h2
            rcases Nat.eq_or_lt_of_le (Nat.not_lt.1 hkr) with rfl | hlt
            · rw [hre] at hke; cases hke; exact hk heq
            · have hkl : k < es.length := (List.getElem?_eq_some_iff.1 hke).1
              have h3 := hs r k (by simpa using hel) (by simpa using hkl) hlt
              simp only [List.getElem_map] at h3
              have : es[k] = e := (List.getElem?_eq_some_iff.1 hke).2
              rw [this] at h3
              omega
    · rw [if_neg (by omega), check_ok (by simpa using h0), bind_ok, h.size]
      simp [check, h1]
  · rw [if_neg (by omega)]
    simp [check, h0]

/-- **C15.** For every declared size and every history of `addElement` and `clear`: the history succeeds
iff each added index exceeds all present ones and is below the size (otherwise an assertion fails), and
afterwards `size`, `element`, `nonzeroSize`, `nonzeroIndex`, `nonzeroElement` are those of the list of
entries: `element(i)` is the value added for `i`, else the default; the `k`-th nonzero is the `k`-th
entry; indices are strictly increasing. -/
theorem sparse_vector_is_function (dflt : α) (sz : Int) (ops : List (Op α)) :
    match specRun ops (sz, []) with
    | none => run ops (new sz) = .error .assertFail
    | some (sz', es) => ∃ v, run ops (new sz) = .ok v ∧ v.size = sz' ∧
        (∀ i, element dflt i v = if 0 ≤ i ∧ i < sz' then .ok (lookup dflt i es) else .error .assertFail) ∧
        nonzeroSize v = es.length ∧
        (∀ (k : Nat) e, es[k]? = some e → nonzeroIndex k v = .ok e.1 ∧ nonzeroElement k v = .ok e.2) ∧
        (∀ k : Int, k < 0 ∨ es.length ≤ k → nonzeroIndex k v = .error .assertFail ∧ nonzeroElement k v = .error .assertFail) ∧
        (es.map Prod.fst).Pairwise (· < ·) := by
  have := run_refines ops (v := (new sz : Vec α)) (sz := sz) (es := []) ⟨rfl, rfl, rfl, by simp⟩
  cases hs : specRun ops (sz, []) with
  | none => rw [hs] at this; exact this
  | some p =>
    obtain ⟨sz', es⟩ := p
    rw [hs] at this
    obtain ⟨v, e, h⟩ := this
    have hnz : nonzeroSize v = es.length := by unfold nonzeroSize; rw [h.data]; simp
    refine ⟨v, e, h.size, element_rep h, hnz, fun k e hk => ?_, fun k hk => ?_, h.sorted⟩
    · have hlt := (List.getElem?_eq_some_iff.1 hk).1
      unfold nonzeroIndex nonzeroElement
      rw [hnz, check_ok (by simp), bind_ok, check_ok (by simpa using hlt), bind_ok, rdI_natCast, rdI_natCast, h.data, h.indices]
      constructor <;> apply rd_of_getElem? <;> rw [List.getElem?_map, hk] <;> rfl
    · unfold nonzeroIndex nonzeroElement
      rw [hnz]
      by_cases h0 : k < 0
      · simp [check, Int.not_le.2 h0]
      · have h1 : 0 ≤ k := by omega
        have h2 : ¬ k < es.length := by omega
        simp [check, h1, h2]

theorem validate_iff (sz last : Int) (is : List Int) :
    validate sz last is = if (is.Pairwise (· < ·) ∧ ∀ i ∈ is, last < i ∧ i < sz) then .ok () else .error .thrown := by
  induction is generalizing last with
  | nil => simp [validate]
  | cons i is ih =>
    unfold validate
    by_cases h : i ≤ last ∨ i ≥ sz
    · rw [if_pos h, if_neg]
      rintro ⟨_, h2⟩
      have := h2 i (by simp)
      omega
    · rw [if_neg h, ih]
      congr 1
      apply propext
      rw [List.pairwise_cons]
      constructor
      · rintro ⟨h1, h2⟩
        refine ⟨⟨fun a ha => (h2 a ha).1, h1⟩, fun a ha => ?_⟩
        rcases List.mem_cons.1 ha with rfl | ha
        · omega
        · have := h2 a ha; omega
      · rintro ⟨⟨h1, h2⟩, h3⟩
        exact ⟨h2, fun a ha => ⟨h1 a ha, (h3 a (by simp [ha])).2⟩⟩

/-- **C15, full constructor.** It accepts exactly strictly increasing indices in `[0, sz)` with one value
each, and the result behaves like the list of entries. -/
theorem sparse_vector_constructor (sz : Int) (data : List α) (indices : List Int) :
    (∃ v, newFull sz data indices = .ok v) ↔
      (0 ≤ sz ∧ indices.length = data.length ∧ indices.Pairwise (· < ·) ∧ ∀ i ∈ indices, 0 ≤ i ∧ i < sz) := by
  unfold newFull
  rw [validate_iff]
  by_cases h0 : 0 ≤ sz
  · rw [check_ok (by simpa using h0), bind_ok]
    by_cases h1 : indices.length = data.length
    · rw [check_ok (by simpa using h1), bind_ok]
      have hh : (∀ i ∈ indices, -1 < i ∧ i < sz) ↔ (∀ i ∈ indices, 0 ≤ i ∧ i < sz) := by
        constructor <;> intro h i hi <;> have := h i hi <;> omega
      by_cases h2 : indices.Pairwise (· < ·) ∧ ∀ i ∈ indices, -1 < i ∧ i < sz
      · rw [if_pos h2, bind_ok]
        exact ⟨fun _ => ⟨h0, h1, h2.1, hh.1 h2.2⟩, fun _ => ⟨_, rfl⟩⟩
      · rw [if_neg h2]
        constructor
        · rintro ⟨v, hv⟩; cases hv
        · rintro ⟨_, _, h3, h4⟩; exact absurd ⟨h3, hh.2 h4⟩ h2
    · simp [check, h1]
  · simp [check, h0]

/-- The elements of a vector made by the full constructor. -/
theorem sparse_vector_constructor_element (dflt : α) (sz : Int) (data : List α) (indices : List Int) (v : Vec α)
    (h : newFull sz data indices = .ok v) (i : Int) :
    element dflt i v = if 0 ≤ i ∧ i < sz then .ok (lookup dflt i (indices.zip data)) else .error .assertFail := by
  obtain ⟨h0, h1, h2, _⟩ := (sparse_vector_constructor sz data indices).1 ⟨v, h⟩
  have hv : v = { size := sz, data := data, indices := indices } := by
    unfold newFull at h
    rw [bind_eq_ok] at h
    obtain ⟨_, _, h⟩ := h
    rw [bind_eq_ok] at h
    obtain ⟨_, _, h⟩ := h
    rw [bind_eq_ok] at h
    obtain ⟨_, _, h⟩ := h
    cases h; rfl
  subst hv
  refine element_rep ⟨rfl, ?_, ?_, ?_⟩ i
  · simp only; rw [List.map_snd_zip (by omega)]
  · simp only; rw [List.map_fst_zip (by omega)]
  · rw [List.map_fst_zip (by omega)]; exact h2

/-- A history with additions and a `clear`. -/
example : specRun [Op.add 7 1, Op.add 8 4] (6, ([] : List (Int × Nat))) = some (6, [(1, 7), (4, 8)]) ∧
    run [Op.add 7 1, Op.add 8 4] (new 6) = .ok { size := 6, data := [7, 8], indices := [1, 4] } ∧
    element 0 4 ({ size := 6, data := [7, 8], indices := [1, 4] } : Vec Nat) = .ok 8 ∧
    specRun [Op.add 7 1, Op.add 8 1] (6, ([] : List (Int × Nat))) = none := by decide +kernel

/-- Finding: a negative index is accepted as the first entry (only the full constructor rejects it); it
is counted by `nonzeroSize` but no `element(i)` shows it. -/
theorem negative_index_accepted (x : α) (sz : Int) (h : 0 ≤ sz) :
    ∃ v, run [Op.add x (-1)] (new sz) = .ok v ∧ nonzeroSize v = 1 := by
  refine ⟨{ size := sz, data := [x], indices := [-1] }, ?_, rfl⟩
  unfold run addElement new
  have h1 : -1 < sz := by omega
  simp [check, run, h1]

end Opm.SparseVector
