import Verif.Model.Bucket
import Verif.Proofs.Graph
/-! # Correctness of the "count, accumulate, push back" idiom -/

namespace Opm.Bucket
open Opm Opm.Graph

variable {α : Type}

/-- The values of the items with key `r`, in order. -/
def rowOf (items : List (Nat × α)) (r : Nat) : List α :=
  items.filterMap (fun p => if p.1 = r then some p.2 else none)

/-- All rows `0 … m-1`. -/
def rows (m : Nat) (items : List (Nat × α)) : List (List α) := (List.range m).map (rowOf items)

/-- First position of row `r`. -/
def start (items : List (Nat × α)) : Nat → Nat
  | 0 => 0
  | r + 1 => start items r + (rowOf items r).length

@[simp] theorem rowOf_nil (r : Nat) : rowOf ([] : List (Nat × α)) r = [] := rfl

theorem rowOf_append (a b : List (Nat × α)) (r : Nat) : rowOf (a ++ b) r = rowOf a r ++ rowOf b r := by
  simp [rowOf, List.filterMap_append]

theorem rowOf_snoc_self (a : List (Nat × α)) (r : Nat) (v : α) :
    rowOf (a ++ [(r, v)]) r = rowOf a r ++ [v] := by
  simp [rowOf]

theorem rowOf_snoc_ne (a : List (Nat × α)) {r q : Nat} (v : α) (h : r ≠ q) :
    rowOf (a ++ [(r, v)]) q = rowOf a q := by
  simp [rowOf, h]

theorem mem_rowOf {items : List (Nat × α)} {r : Nat} {x : α} : x ∈ rowOf items r ↔ (r, x) ∈ items := by
  simp only [rowOf, List.mem_filterMap]
  constructor
  · rintro ⟨p, hp, h⟩
    split at h
    · rename_i h1; cases h; subst h1; exact hp
    · cases h
  · intro h
    exact ⟨(r, x), h, by simp⟩

theorem rows_length (m : Nat) (items : List (Nat × α)) : (rows m items).length = m := by simp [rows]

theorem rows_get {m : Nat} {items : List (Nat × α)} {r : Nat} (h : r < m) :
    (rows m items)[r]? = some (rowOf items r) := by simp [rows, h]

theorem take_rows {m r : Nat} {items : List (Nat × α)} (h : r ≤ m) : (rows m items).take r = rows r items := by
  simp only [rows, ← List.map_take, List.take_range, Nat.min_eq_left h]

theorem rows_succ (m : Nat) (items : List (Nat × α)) : rows (m + 1) items = rows m items ++ [rowOf items m] := by
  simp [rows, List.range_succ]

theorem start_eq (items : List (Nat × α)) (r : Nat) : start items r = (rows r items).flatten.length := by
  induction r with
  | zero => rfl
  | succ r ih =>
    rw [rows_succ]
    simp only [start, ih, List.flatten_append, List.length_append, List.flatten_cons, List.flatten_nil,
      List.append_nil]

theorem start_mono (items : List (Nat × α)) {a b : Nat} (h : a ≤ b) : start items a ≤ start items b := by
  induction b with
  | zero => obtain rfl : a = 0 := by omega
            exact Nat.le_refl _
  | succ b ih =>
    rcases Nat.lt_or_ge a (b + 1) with h1 | h1
    · have := ih (by omega)
      simp only [start]; omega
    · obtain rfl : a = b + 1 := by omega
      exact Nat.le_refl _

/-- All items with key below `m` are counted. -/
theorem start_total (m : Nat) (items : List (Nat × α)) (h : ∀ p ∈ items, p.1 < m) :
    start items m = items.length := by
  induction items with
  | nil =>
    clear h
    induction m with
    | zero => rfl
    | succ m ih => simpa [start] using ih
  | cons p items ih =>
    have h1 := ih (fun q hq => h q (List.mem_cons_of_mem _ hq))
    have h2 : ∀ k, start (p :: items) k = start items k + if p.1 < k then 1 else 0 := by
      intro k
      induction k with
      | zero => simp [start]
      | succ k ihk =>
        simp only [start, ihk]
        by_cases hk : p.1 = k
        · have : rowOf (p :: items) k = p.2 :: rowOf items k := by simp [rowOf, hk]
          rw [this, hk]; simp
          omega
        · have : rowOf (p :: items) k = rowOf items k := by simp [rowOf, hk]
          rw [this]
          by_cases hk2 : p.1 < k
          · rw [if_pos hk2, if_pos (by omega)]; omega
          · rw [if_neg hk2, if_neg (by omega)]; omega
    rw [h2, h1, if_pos (h p (List.mem_cons_self ..))]; rfl

/-- After counting `items`: bin `r+1` holds the number of items with key `r`. -/
structure Counted (m : Nat) (items : List (Nat × α)) (ia : List Nat) : Prop where
  len : m + 1 ≤ ia.length
  zero : ia[0]? = some 0
  cnt : ∀ r : Nat, r < m → ia[r + 1]? = some (rowOf items r).length

theorem counted_replicate (m : Nat) : Counted m ([] : List (Nat × α)) (List.replicate (m + 1) 0) where
  len := by simp
  zero := by simp
  cnt := by intro r hr; simp [hr]

theorem counted_fill (m : Nat) (ia : List Nat) : Counted m ([] : List (Nat × α)) (List.replicate (m + 1) 0 ++ ia) where
  len := by rw [List.length_append, List.length_replicate]; omega
  zero := by rw [List.replicate_succ]; rfl
  cnt := by
    intro r hr
    rw [List.getElem?_append_left (by simpa using hr)]; simp [hr]

theorem bump_counted {m : Nat} {items : List (Nat × α)} {ia : List Nat} (h : Counted m items ia)
    {r : Nat} (v : α) (hr : r < m) :
    ∃ ia', bump ia (r + 1) = .ok ia' ∧ Counted m (items ++ [(r, v)]) ia' ∧ ia'.length = ia.length := by
  have h1 := h.cnt r hr
  have hlen := h.len
  refine ⟨ia.set (r + 1) ((rowOf items r).length + 1), ?_, ?_, by simp⟩
  · unfold bump
    rw [rd_of_getElem? h1, bind_ok, wr_ok (by omega)]
  · refine ⟨by simpa using hlen, ?_, ?_⟩
    · rw [List.getElem?_set_ne (by omega)]; exact h.zero
    · intro q hq
      by_cases hqr : r = q
      · subst hqr
        rw [List.getElem?_set_self (by omega), rowOf_snoc_self]; simp
      · rw [List.getElem?_set_ne (by omega), rowOf_snoc_ne _ _ hqr]; exact h.cnt q hq

theorem accumulate_ok {m : Nat} {items : List (Nat × α)} {ia : List Nat} (h : Counted m items ia) :
    ∃ ia', accumulate m ia = .ok ia' ∧ ia'.length = ia.length ∧ ia'[0]? = some (start items m) ∧
      ∀ r : Nat, r < m → ia'[r + 1]? = some (start items r) := by
  have hil := h.len
  obtain ⟨t, ht, hlen, h0, hlo, hhi⟩ := loop_inv (n := m) (s := ia)
    (f := fun k ia => do
      let a0 ← rd ia 0
      let x ← rd ia (k + 1)
      let ia ← wr ia 0 (a0 + x)
      let a0 ← rd ia 0
      let x ← rd ia (k + 1)
      wr ia (k + 1) (a0 - x))
    (fun k t => t.length = ia.length ∧ t[0]? = some (start items k) ∧
      (∀ r : Nat, r < k → t[r + 1]? = some (start items r)) ∧
      (∀ r : Nat, k ≤ r → r < m → t[r + 1]? = some (rowOf items r).length))
    ⟨rfl, h.zero, by intro r hr; omega, fun r _ hr => h.cnt r hr⟩
    (by
      rintro k t hk ⟨hlen, h0, hlo, hhi⟩
      have hk1 := hhi k (Nat.le_refl _) hk
      have e1 : (t.set 0 (start items k + (rowOf items k).length))[0]? = some (start items (k + 1)) := by
        rw [List.getElem?_set_self (by omega)]; rfl
      have e2 : (t.set 0 (start items k + (rowOf items k).length))[k + 1]? = some (rowOf items k).length := by
        rw [List.getElem?_set_ne (by omega)]; exact hk1
      refine ⟨(t.set 0 (start items k + (rowOf items k).length)).set (k + 1) (start items k), ?_, ?_, ?_, ?_, ?_⟩
      · simp only [rd_of_getElem? h0, bind_ok, rd_of_getElem? hk1, wr_ok (show 0 < t.length by omega),
          rd_of_getElem? e1, rd_of_getElem? e2]
        rw [wr_ok (by simp; omega)]
        simp only [start, Nat.add_sub_cancel]
      · simp [hlen]
      · rw [List.getElem?_set_ne (by omega)]; exact e1
      · intro r hr
        by_cases hrk : r = k
        · subst hrk
          rw [List.getElem?_set_self (by simp; omega)]
        · rw [List.getElem?_set_ne (by omega), List.getElem?_set_ne (by omega)]
          exact hlo r (by omega)
      · intro r hr hrm
        rw [List.getElem?_set_ne (by omega), List.getElem?_set_ne (by omega)]
        exact hhi r (by omega) hrm)
  exact ⟨t, ht, hlen, h0, hlo⟩

/-- While pushing: `done` has been written. -/
structure Pushing (m : Nat) (all done : List (Nat × α)) (s : List Nat × List α) : Prop where
  len : m + 1 ≤ s.1.length
  ptr : ∀ r : Nat, r < m → s.1[r + 1]? = some (start all r + (rowOf done r).length)
  dat : ∀ r : Nat, r < m → ∀ (k : Nat) x, (rowOf done r)[k]? = some x → s.2[start all r + k]? = some x
  jlen : start all m ≤ s.2.length

theorem pushing_init {m : Nat} {all : List (Nat × α)} {ia : List Nat} {ja : List α} (hlen : m + 1 ≤ ia.length)
    (h : ∀ r : Nat, r < m → ia[r + 1]? = some (start all r)) (hj : start all m ≤ ja.length) :
    Pushing m all [] (ia, ja) where
  len := hlen
  ptr := by intro r hr; simpa using h r hr
  dat := by intro r hr k x h; simp at h
  jlen := hj

theorem push_step {m : Nat} {all done rest : List (Nat × α)} {s : List Nat × List α} {r : Nat} {v : α}
    (hall : all = done ++ (r, v) :: rest) (hr : r < m) (h : Pushing m all done s) :
    ∃ s', pushAt (r + 1) v s = .ok s' ∧ Pushing m all (done ++ [(r, v)]) s' ∧ s'.1[0]? = s.1[0]? ∧
      s'.1.length = s.1.length ∧ s'.2.length = s.2.length := by
  have hlen := h.len
  have hsub : ∀ q, (rowOf (done ++ [(r, v)]) q).length ≤ (rowOf all q).length := by
    intro q
    rw [hall, show done ++ (r, v) :: rest = (done ++ [(r, v)]) ++ rest by simp, rowOf_append _ rest]
    rw [List.length_append]; omega
  have hlt : (rowOf done r).length < (rowOf all r).length := by
    have := hsub r
    rw [rowOf_snoc_self] at this
    simp only [List.length_append, List.length_singleton] at this
    omega
  have hpos : start all r + (rowOf done r).length < start all (r + 1) := by simp only [start]; omega
  have hm := start_mono all (show r + 1 ≤ m from hr)
  have hj := h.jlen
  refine ⟨(s.1.set (r + 1) (start all r + (rowOf done r).length + 1),
    s.2.set (start all r + (rowOf done r).length) v), ?_, ?_, ?_, by simp, by simp⟩
  · unfold pushAt
    rw [rd_of_getElem? (h.ptr r hr), bind_ok, wr_ok (by omega), bind_ok, wr_ok (by omega), bind_ok]
  · refine ⟨by simpa using hlen, ?_, ?_, by simpa using hj⟩
    · intro q hq
      by_cases hqr : r = q
      · subst hqr
        simp only
        rw [List.getElem?_set_self (by omega), rowOf_snoc_self]; simp [Nat.add_assoc]
      · simp only
        rw [List.getElem?_set_ne (by omega), rowOf_snoc_ne _ _ hqr]; exact h.ptr q hq
    · intro q hq k x hx
      simp only
      by_cases hqr : r = q
      · subst hqr
        rw [rowOf_snoc_self] at hx
        rcases Nat.lt_or_ge k (rowOf done r).length with hk | hk
        · rw [List.getElem?_append_left hk] at hx
          rw [List.getElem?_set_ne (by omega)]
          exact h.dat r hr k x hx
        · rw [List.getElem?_append_right hk] at hx
          have hk0 : k - (rowOf done r).length = 0 := by
            have := (List.getElem?_eq_some_iff.1 hx).1
            simpa using this
          obtain rfl : k = (rowOf done r).length := by omega
          simp at hx
          subst hx
          rw [List.getElem?_set_self (by omega)]
      · rw [rowOf_snoc_ne _ _ hqr] at hx
        have hk := (List.getElem?_eq_some_iff.1 hx).1
        have h1 : (rowOf done q).length ≤ (rowOf all q).length := by
          have := hsub q
          rwa [rowOf_snoc_ne _ _ hqr] at this
        have h2 : start all q + k < start all (q + 1) := by simp only [start]; omega
        rw [List.getElem?_set_ne]
        · exact h.dat q hq k x hx
        · rcases Nat.lt_or_ge q r with h3 | h3
          · have := start_mono all (show q + 1 ≤ r from h3); omega
          · have := start_mono all (show r + 1 ≤ q by omega); omega
  · simp only
    rw [List.getElem?_set_ne (by omega)]

theorem boundaries_rows_get (m : Nat) (items : List (Nat × α)) {r : Nat} (h : r ≤ m) :
    (boundaries 0 (rows m items))[r]? = some (start items r) := by
  rw [boundaries_get _ _ _ (by rw [rows_length]; exact h), Nat.zero_add, take_rows h, start_eq]

theorem push_done {m : Nat} {all : List (Nat × α)} {s : List Nat × List α} (h : Pushing m all all s) :
    (s.1.set 0 0).take (m + 1) = boundaries 0 (rows m all) ∧ s.2 = (rows m all).flatten ++ s.2.drop (start all m) := by
  have hlen := h.len
  constructor
  · apply List.ext_getElem?
    intro i
    rcases Nat.lt_or_ge i (m + 1) with hi | hi
    · rw [boundaries_rows_get m all (by omega), List.getElem?_take, if_pos hi]
      cases i with
      | zero => rw [List.getElem?_set_self (by omega)]; rfl
      | succ i =>
        rw [List.getElem?_set_ne (by omega), h.ptr i (by omega)]; rfl
    · rw [List.getElem?_eq_none (by simp; omega),
        List.getElem?_eq_none (by rw [boundaries_length, rows_length]; exact hi)]
  · have key : ∀ r, r ≤ m → s.2.take (start all r) = (rows r all).flatten := by
      intro r
      induction r with
      | zero => intro _; simp [start, rows]
      | succ r ih =>
        intro hr
        rw [rows_succ, List.flatten_append, ← ih (by omega)]
        simp only [start, List.flatten_cons, List.flatten_nil, List.append_nil]
        rw [List.take_add]
        congr 1
        apply List.ext_getElem?
        intro k
        have hm := start_mono all (show r + 1 ≤ m from hr)
        simp only [start] at hm
        have hj := h.jlen
        rcases Nat.lt_or_ge k (rowOf all r).length with hk | hk
        · have hx := List.getElem?_eq_getElem hk
          have := h.dat r hr k _ hx
          rw [List.getElem?_take, if_pos hk, List.getElem?_drop, this, hx]
        · rw [List.getElem?_eq_none hk, List.getElem?_eq_none]
          simp; omega
    rw [← key m (Nat.le_refl _), List.take_append_drop]

theorem fill_ok {α : Type} (n : Nat) (x : α) (a : List α) (h : n ≤ a.length) :
    fill n x a = .ok (List.replicate n x ++ a.drop n) := by
  obtain ⟨t, ht, hP⟩ := loop_inv (n := n) (s := a) (f := fun i a => wr a i x)
    (fun i t => t = List.replicate i x ++ a.drop i) (by simp)
    (by
      rintro i t hi rfl
      refine ⟨_, wr_ok (by simp; omega), ?_⟩
      rw [List.set_append_right _ _ (by simp)]
      simp only [List.length_replicate, Nat.sub_self]
      rw [List.drop_eq_getElem_cons (show i < a.length by omega), List.set_cons_zero]
      simp [List.replicate_succ'])
  unfold fill
  rw [ht, hP]

end Opm.Bucket
