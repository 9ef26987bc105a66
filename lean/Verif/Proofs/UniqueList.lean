import Verif.Spec.UniquePoints
import Verif.Core.Cursor
import Verif.Core.RowLoop
import Mathlib.Algebra.Order.Field.Rat
import Mathlib.Tactic.Linarith
/-! # Points on pillars: the list of depths of one pillar -/

namespace Opm.UniquePoints
open Opm

/-- `buf` is `buf0` with `l` stored from position `off`. -/
def Holds (buf0 : List Rat) (off : Nat) (buf l : List Rat) : Prop :=
  off + l.length ≤ buf0.length ∧ buf = buf0.take off ++ l ++ buf0.drop (off + l.length)

theorem Holds.length {buf0 buf l : List Rat} {off : Nat} (h : Holds buf0 off buf l) : buf.length = buf0.length := by
  obtain ⟨h1, rfl⟩ := h
  simp
  omega

theorem Holds.get {buf0 buf l : List Rat} {off i : Nat} (h : Holds buf0 off buf l) (hi : i < l.length) : buf.getD (off + i) 0 = l.getD i 0 := by
  obtain ⟨h1, rfl⟩ := h
  rw [List.getD_eq_getElem?_getD, List.getD_eq_getElem?_getD, List.append_assoc, List.getElem?_append_right (by simp), List.getElem?_append_left (by simp; omega)]
  simp [Nat.min_eq_left (show off ≤ buf0.length by omega)]

theorem Holds.take {buf0 buf l : List Rat} {off : Nat} (h : Holds buf0 off buf l) : buf.take off = buf0.take off := by
  obtain ⟨h1, rfl⟩ := h
  rw [List.append_assoc, List.take_append_of_le_length (by simp; omega), List.take_take, Nat.min_self]

theorem Holds.nil {buf0 : List Rat} {off : Nat} (h : off ≤ buf0.length) : Holds buf0 off buf0 [] := ⟨by simpa using h, by simp⟩

theorem Holds.set {buf0 buf l : List Rat} {off i : Nat} {v : Rat} (h : Holds buf0 off buf l) (hi : i < l.length) :
    Holds buf0 off (buf.set (off + i) v) (l.set i v) := by
  obtain ⟨h1, rfl⟩ := h
  refine ⟨by simpa using h1, ?_⟩
  have : (buf0.take off).length = off := by simp; omega
  rw [List.append_assoc, List.set_append_right _ _ (by omega), this, Nat.add_sub_cancel_left, List.set_append_left _ _ hi, ← List.append_assoc]
  simp

theorem Holds.push {buf0 buf l : List Rat} {off : Nat} {v : Rat} (h : Holds buf0 off buf l) (hl : off + l.length < buf0.length) :
    wr buf (off + l.length) v = .ok (buf.set (off + l.length) v) ∧ Holds buf0 off (buf.set (off + l.length) v) (l ++ [v]) := by
  refine ⟨wr_ok (by rw [h.length]; omega), by simp; omega, ?_⟩
  obtain ⟨h1, rfl⟩ := h
  have h2 : (buf0.take off).length = off := by simp; omega
  rw [List.append_assoc, List.set_append_right _ _ (by omega), h2, Nat.add_sub_cancel_left, List.set_append_right _ _ (by omega), Nat.sub_self]
  obtain ⟨x, xs, e⟩ : ∃ x xs, buf0.drop (off + l.length) = x :: xs := by
    cases hd : buf0.drop (off + l.length) with
    | nil => simp at hd; omega
    | cons x xs => exact ⟨x, xs, rfl⟩
  rw [e]
  have : buf0.drop (off + (l ++ [v]).length) = xs := by
    rw [show off + (l ++ [v]).length = (off + l.length) + 1 by simp; omega, ← List.drop_drop, e]
    rfl
  rw [this]
  simp

theorem Holds.sort {buf0 buf l : List Rat} {off : Nat} (h : Holds buf0 off buf l) :
    Holds buf0 off (sortRange buf off (off + l.length)) (l.insertionSort (· ≤ ·)) := by
  have hl := h.length
  obtain ⟨h1, rfl⟩ := h
  have h2 : (buf0.take off).length = off := by simp; omega
  refine ⟨by simpa using h1, ?_⟩
  unfold sortRange
  have e1 : (buf0.take off ++ l ++ buf0.drop (off + l.length)).take off = buf0.take off := by
    rw [List.append_assoc]; exact List.take_left' h2
  have e2 : (buf0.take off ++ l ++ buf0.drop (off + l.length)).drop off = l ++ buf0.drop (off + l.length) := by
    rw [List.append_assoc]; exact List.drop_left' h2
  have e3 : (buf0.take off ++ l ++ buf0.drop (off + l.length)).drop (off + l.length) = buf0.drop (off + l.length) :=
    List.drop_left' (by simp; omega)
  rw [e1, e2, e3, Nat.add_sub_cancel_left, List.take_left' rfl]
  simp

/-- The active depths of level `i` in four columns, as a list. -/
def levelDepths (zcorn : List Rat) (actnum : List Int) (Z A : Nat → Nat) (i : Nat) : List Rat :=
  (List.range 4).flatMap fun j => if actnum.getD (A j + i / 2) 0 ≠ 0 then [zcorn.getD (Z j + i) 0] else []

theorem length_levelDepths (zcorn : List Rat) (actnum : List Int) (Z A : Nat → Nat) (i : Nat) : (levelDepths zcorn actnum Z A i).length ≤ 4 := by
  unfold levelDepths
  rw [List.length_flatMap]
  have : ∀ j, (if actnum.getD (A j + i / 2) 0 ≠ 0 then [zcorn.getD (Z j + i) 0] else []).length ≤ 1 := by
    intro j; split <;> simp
  have h0 := this 0; have h1 := this 1; have h2 := this 2; have h3 := this 3
  simp only [List.range_succ, List.range_zero, List.nil_append, List.cons_append, List.map_cons, List.map_nil, List.sum_cons, List.sum_nil]
  omega

/-- The active depths of four columns of `n` corners, as a list. -/
def allDepths (zcorn : List Rat) (actnum : List Int) (n : Nat) (Z A : Nat → Nat) : List Rat := (List.range n).flatMap (levelDepths zcorn actnum Z A)

theorem length_allDepths (zcorn : List Rat) (actnum : List Int) (n : Nat) (Z A : Nat → Nat) : (allDepths zcorn actnum n Z A).length ≤ 4 * n := by
  unfold allDepths
  induction n with
  | zero => simp
  | succ n ih =>
    rw [List.range_succ, List.flatMap_append, List.length_append]
    have := length_levelDepths zcorn actnum Z A n
    simp only [List.flatMap_cons, List.flatMap_nil, List.append_nil]
    omega

theorem mem_allDepths {zcorn : List Rat} {actnum : List Int} {n : Nat} {Z A : Nat → Nat} {v : Rat} :
    v ∈ allDepths zcorn actnum n Z A ↔ ∃ i j, i < n ∧ j < 4 ∧ actnum.getD (A j + i / 2) 0 ≠ 0 ∧ zcorn.getD (Z j + i) 0 = v := by
  unfold allDepths levelDepths
  simp only [List.mem_flatMap, List.mem_range]
  constructor
  · rintro ⟨i, hi, j, hj, h⟩
    split at h
    · rename_i ha
      exact ⟨i, j, hi, hj, ha, (List.mem_singleton.1 h).symm⟩
    · cases h
  · rintro ⟨i, j, hi, hj, ha, rfl⟩
    exact ⟨i, hi, j, hj, by rw [if_pos ha]; simp⟩

theorem rdI_D {α : Type} {l : List α} {d : α} {i : Nat} {k : Int} (hk : k = i) (h : i < l.length) : rdI l k = .ok (l.getD i d) := by
  subst hk
  rw [rdI_natCast]
  exact rd_of_getElem? (by rw [List.getElem?_eq_getElem h, List.getD_eq_getElem?_getD, List.getElem?_eq_getElem h]; rfl)

theorem collect_ok {zcorn : List Rat} {actnum : List Int} {n : Nat} {z a : List Int} {Z A : Nat → Nat} (hz : ∀ j, j < 4 → z[j]? = some (Z j : Int))
    (ha : ∀ j, j < 4 → a[j]? = some (A j : Int)) (hzl : ∀ i j, i < n → j < 4 → Z j + i < zcorn.length) (hal : ∀ i j, i < n → j < 4 → A j + i / 2 < actnum.length)
    {buf : List Rat} {off : Nat} (hb : off + 4 * n ≤ buf.length) :
    ∃ b, collect zcorn actnum n z a buf off = .ok (b, off + (allDepths zcorn actnum n Z A).length) ∧ Holds buf off b (allDepths zcorn actnum n Z A) := by
  have hlen := length_allDepths zcorn actnum n Z A
  obtain ⟨s, e, hs1, hs2⟩ := loop_emit (S := List Rat × Nat) (β := Rat) (fun s l => s.2 = off + l.length ∧ Holds buf off s.1 l) (buf.length - off) (n := n)
    (body := fun i s => loop 4 (fun j s => do
      let aj ← rd a j
      let act ← rdI actnum (aj + (i / 2 : Nat))
      if act ≠ 0 then do
        let zj ← rd z j
        let v ← rdI zcorn (zj + i)
        let b ← wr s.1 s.2 v
        .ok (b, s.2 + 1)
      else .ok s) s) (levelDepths zcorn actnum Z A) (by
      intro i hi s l hR hcap
      exact loop_emit (S := List Rat × Nat) (β := Rat) (fun s l => s.2 = off + l.length ∧ Holds buf off s.1 l) (buf.length - off) (n := 4) _ (by
        rintro j hj ⟨b, p⟩ l ⟨hp, hR⟩ hcap
        simp only at hp
        subst hp
        simp only
        rw [rd_of_getElem? (ha j hj), bind_ok, rdI_D (d := 0) (i := A j + i / 2) (by push_cast; rfl) (hal i j hi hj), bind_ok]
        by_cases hact : actnum.getD (A j + i / 2) 0 ≠ 0
        · rw [if_pos hact] at hcap
          simp only [List.length_singleton] at hcap
          obtain ⟨h1, h2⟩ := hR.push (v := zcorn.getD (Z j + i) 0) (by omega)
          rw [if_pos hact, rd_of_getElem? (hz j hj), bind_ok, rdI_D (d := 0) (i := Z j + i) (by push_cast; rfl) (hzl i j hi hj), bind_ok, h1, bind_ok, if_pos hact]
          refine ⟨_, rfl, ?_, h2⟩
          simp only [List.length_append, List.length_singleton]
          omega
        · rw [if_neg hact, if_neg hact, List.append_nil]
          exact ⟨_, rfl, rfl, hR⟩) hR hcap) (s := (buf, off)) (l := []) ⟨by simp, Holds.nil (by omega)⟩ (by
      simp only [List.length_nil, Nat.zero_add]
      change (allDepths zcorn actnum n Z A).length ≤ _
      omega)
  rw [List.nil_append] at hs1 hs2
  refine ⟨s.1, ?_, hs2⟩
  unfold collect
  rw [e]
  exact congrArg Except.ok (Prod.ext rfl hs1)

theorem createSortedList_ok {zcorn : List Rat} {actnum : List Int} {n : Nat} {z a : List Int} {Z A : Nat → Nat} (hz : ∀ j, j < 4 → z[j]? = some (Z j : Int))
    (ha : ∀ j, j < 4 → a[j]? = some (A j : Int)) (hzl : ∀ i j, i < n → j < 4 → Z j + i < zcorn.length) (hal : ∀ i j, i < n → j < 4 → A j + i / 2 < actnum.length)
    {buf : List Rat} {off : Nat} (hb : off + 4 * n ≤ buf.length) :
    ∃ b l, createSortedList zcorn actnum n z a buf off = .ok (b, l.length) ∧ Holds buf off b l ∧ l.Pairwise (· ≤ ·) ∧ l.length ≤ 4 * n ∧
      ∀ v, v ∈ l ↔ ∃ i j, i < n ∧ j < 4 ∧ actnum.getD (A j + i / 2) 0 ≠ 0 ∧ zcorn.getD (Z j + i) 0 = v := by
  obtain ⟨b, e, h⟩ := collect_ok hz ha hzl hal hb
  refine ⟨_, _, ?_, h.sort, List.pairwise_insertionSort _ _, ?_, ?_⟩
  · unfold createSortedList
    rw [e, bind_ok]
    simp
  · rw [List.length_insertionSort]
    exact length_allDepths ..
  · intro v
    rw [List.mem_insertionSort]
    exact mem_allDepths

/-- What `uniquify` makes of a sorted list. -/
structure UniqOf (tol : Rat) (l u : List Rat) : Prop where
  apart : ∀ k, k + 1 < u.length → u.getD k 0 + tol < u.getD (k + 1) 0
  mem : ∀ x, x ∈ u → x ∈ l
  near : ∀ v, v ∈ l → ∃ k, k < u.length ∧ u.getD k 0 - v ≤ tol ∧ v - u.getD k 0 ≤ tol
  deepest : ∀ v, v ∈ l → v ≤ u.getD (u.length - 1) 0

/-- The invariant of the loop of `uniquify`, after the first `i` numbers. -/
structure UInv (tol : Rat) (l : List Rat) (i : Nat) (b : List Rat) (pos : Nat) (val : Rat) : Prop where
  one : 1 ≤ pos
  le : pos ≤ i
  len : b.length = l.length
  val : val = b.getD (pos - 1) 0
  apart : ∀ k, k + 1 < pos → b.getD k 0 + tol < b.getD (k + 1) 0
  mem : ∀ k, k < pos → ∃ t, t < i ∧ l.getD t 0 = b.getD k 0
  near : ∀ t, t < i → ∃ k, k < pos ∧ b.getD k 0 ≤ l.getD t 0 ∧ l.getD t 0 ≤ b.getD k 0 + tol
  rest : ∀ t, pos ≤ t → b.getD t 0 = l.getD t 0
  keep : pos = i → b.getD (i - 1) 0 = l.getD (i - 1) 0

theorem getD_set' {l : List Rat} {i j : Nat} {v : Rat} (h : i < l.length) : (l.set i v).getD j 0 = if j = i then v else l.getD j 0 := by
  rw [List.getD_eq_getElem?_getD, List.getD_eq_getElem?_getD, List.getElem?_set]
  by_cases hij : i = j
  · subst hij; simp [h]
  · simp [hij, Ne.symm hij]

theorem getD_mem {l : List Rat} {i : Nat} (h : i < l.length) : l.getD i 0 ∈ l := by
  rw [List.getD_eq_getElem?_getD, List.getElem?_eq_getElem h]
  exact List.getElem_mem h

theorem mem_getD {l : List Rat} {v : Rat} (h : v ∈ l) : ∃ i, i < l.length ∧ l.getD i 0 = v := by
  obtain ⟨i, hi, e⟩ := List.getElem_of_mem h
  exact ⟨i, hi, by rw [List.getD_eq_getElem?_getD, List.getElem?_eq_getElem hi]; exact e⟩

theorem sorted_getD {l : List Rat} (h : l.Pairwise (· ≤ ·)) {i j : Nat} (hij : i ≤ j) (hj : j < l.length) : l.getD i 0 ≤ l.getD j 0 := by
  rw [List.getD_eq_getElem?_getD, List.getElem?_eq_getElem (by omega), List.getD_eq_getElem?_getD, List.getElem?_eq_getElem hj]
  rcases Nat.lt_or_ge i j with h' | h'
  · exact List.pairwise_iff_getElem.1 h i j (by omega) hj h'
  · obtain rfl : i = j := by omega
    exact le_refl _

theorem apart_mono {tol : Rat} (ht : 0 ≤ tol) {b : List Rat} {pos : Nat} (h : ∀ k, k + 1 < pos → b.getD k 0 + tol < b.getD (k + 1) 0) {k m : Nat} (hkm : k ≤ m)
    (hm : m < pos) : b.getD k 0 ≤ b.getD m 0 := by
  induction m with
  | zero => obtain rfl : k = 0 := by omega
            exact le_refl _
  | succ m ih =>
    rcases Nat.lt_or_ge k (m + 1) with h' | h'
    · have := h m hm
      have := ih (by omega) (by omega)
      linarith
    · obtain rfl : k = m + 1 := by omega
      exact le_refl _

theorem uniquify_loop {tol : Rat} (ht : 0 ≤ tol) {buf0 buf l : List Rat} {off : Nat} (h : Holds buf0 off buf l) (hs : l.Pairwise (· ≤ ·)) (hl : 1 ≤ l.length) :
    ∃ s b', forRange 1 l.length (fun i (s : List Rat × Nat × Rat) => do
      let x ← rd s.1 (off + i)
      if s.2.2 + tol < x then do
        let b ← wr s.1 (off + s.2.1) x
        .ok (b, s.2.1 + 1, x)
      else .ok s) (buf, 1, l.getD 0 0) = .ok s ∧ Holds buf0 off s.1 b' ∧ UInv tol l l.length b' s.2.1 s.2.2 := by
  obtain ⟨s, e, b', h1, h2⟩ := forRange_inv (s := (buf, 1, l.getD 0 0)) (f := fun i (s : List Rat × Nat × Rat) => do
      let x ← rd s.1 (off + i)
      if s.2.2 + tol < x then do
        let b ← wr s.1 (off + s.2.1) x
        .ok (b, s.2.1 + 1, x)
      else .ok s) hl (P := fun i s => ∃ b', Holds buf0 off s.1 b' ∧ UInv tol l i b' s.2.1 s.2.2)
    ⟨l, h, ⟨le_refl _, le_refl _, rfl, rfl, fun k (hk : k + 1 < 1) => by omega, fun k (hk : k < 1) => ⟨k, hk, rfl⟩, fun t htt => ⟨0, Nat.one_pos, by
      obtain rfl : t = 0 := by omega
      exact ⟨le_refl _, by linarith⟩⟩, fun _ _ => rfl, fun _ => rfl⟩⟩ (by
      rintro i ⟨b, pos, val⟩ hi hi' ⟨b', hb, inv⟩
      simp only at hb inv ⊢
      have hbl := hb.length
      have hb1 := hb.1
      have hlen := inv.len
      have hone := inv.one
      have hle := inv.le
      rw [rd_of_getElem? (getElem?_getD (by omega)), bind_ok, hb.get (by omega), inv.rest i (by omega)]
      by_cases hc : val + tol < l.getD i 0
      · rw [if_pos hc, wr_ok (by omega), bind_ok]
        refine ⟨_, rfl, _, hb.set (by omega), ?_⟩
        simp only
        refine ⟨by omega, by omega, by simpa using hlen, ?_, ?_, ?_, ?_, ?_, ?_⟩
        · rw [getD_set' (by omega), if_pos (by omega)]
        · intro k hk
          rw [getD_set' (by omega), getD_set' (by omega), if_neg (by omega)]
          split
          · have : k = pos - 1 := by omega
            rw [this, ← inv.val]; exact hc
          · exact inv.apart k (by omega)
        · intro k hk
          rw [getD_set' (by omega)]
          split
          · exact ⟨i, by omega, rfl⟩
          · obtain ⟨t, h1, h2⟩ := inv.mem k (by omega)
            exact ⟨t, by omega, h2⟩
        · intro t htt
          rcases Nat.lt_or_ge t i with h' | h'
          · obtain ⟨k, hk, g1, g2⟩ := inv.near t h'
            exact ⟨k, by omega, by rw [getD_set' (by omega), if_neg (by omega)]; exact g1, by rw [getD_set' (by omega), if_neg (by omega)]; exact g2⟩
          · obtain rfl : t = i := by omega
            exact ⟨pos, by omega, by rw [getD_set' (by omega), if_pos rfl], by rw [getD_set' (by omega), if_pos rfl]; linarith⟩
        · intro t htt
          rw [getD_set' (by omega), if_neg (by omega)]
          exact inv.rest t (by omega)
        · intro hpi
          obtain rfl : pos = i := by omega
          rw [getD_set' (by omega), if_pos (by omega), Nat.add_sub_cancel]
      · rw [if_neg hc]
        refine ⟨_, rfl, b', hb, ?_⟩
        simp only
        refine ⟨hone, by omega, hlen, inv.val, inv.apart, fun k hk => ?_, ?_, fun t htt => inv.rest t (by omega), fun _ => by omega⟩
        · obtain ⟨t, h1, h2⟩ := inv.mem k hk
          exact ⟨t, by omega, h2⟩
        intro t htt
        rcases Nat.lt_or_ge t i with h' | h'
        · exact inv.near t h'
        · obtain rfl : t = i := by omega
          refine ⟨pos - 1, by omega, ?_, ?_⟩
          · obtain ⟨m, hm, em⟩ := inv.mem (pos - 1) (by omega)
            rw [← em]
            exact sorted_getD hs (by omega) (by omega)
          · rw [← inv.val]; exact not_lt.1 hc)
  exact ⟨s, b', e, h1, h2⟩

theorem getD_take {l : List Rat} {n k : Nat} (h : k < n) : (l.take n).getD k 0 = l.getD k 0 := by
  rw [List.getD_eq_getElem?_getD, List.getD_eq_getElem?_getD, List.getElem?_take, if_pos h]

/-- `uniquify` leaves the buffer with a list of the same length, whose first part is the result. -/
theorem uniquify_ok {tol : Rat} (ht : 0 ≤ tol) {buf0 buf l : List Rat} {off : Nat} (h : Holds buf0 off buf l) (hs : l.Pairwise (· ≤ ·)) :
    ∃ b l' u, uniquify l.length tol buf off = .ok (b, u.length) ∧ Holds buf0 off b l' ∧ l'.length = l.length ∧ u = l'.take u.length ∧ UniqOf tol l u := by
  have hck : check (decide (¬ tol < 0)) = .ok () := check_ok (by simpa using ht)
  rcases Nat.lt_or_ge l.length 1 with hl | hl
  · refine ⟨buf, l, [], ?_, h, rfl, rfl, ?_⟩
    · unfold uniquify
      rw [hck, bind_ok, if_pos hl]
      rfl
    · obtain rfl : l = [] := List.length_eq_zero_iff.1 (by omega)
      exact ⟨by simp, by simp, by simp, by simp⟩
  · obtain ⟨⟨b, pos, val⟩, b', e, hb, inv⟩ := uniquify_loop ht h hs hl
    simp only at hb inv
    have hbl := hb.length
    have hb1 := hb.1
    have hlen := inv.len
    have hone := inv.one
    have hle := inv.le
    have h0 := h.1
    have h2 := h.length
    have hlast : b.getD (off + (l.length - 1)) 0 = b'.getD (l.length - 1) 0 := hb.get (by omega)
    obtain ⟨kl, hkl, gl1, gl2⟩ := inv.near (l.length - 1) (by omega)
    have htop : ∀ v, v ∈ l → v ≤ l.getD (l.length - 1) 0 := by
      intro v hv
      obtain ⟨t, h1, rfl⟩ := mem_getD hv
      exact sorted_getD hs (by omega) (by omega)
    have hblast : b'.getD (l.length - 1) 0 = l.getD (l.length - 1) 0 := by
      rcases Nat.lt_or_ge pos l.length with h' | h'
      · exact inv.rest _ (by omega)
      · exact inv.keep (by omega)
    refine ⟨b.set (off + (pos - 1)) (b'.getD (l.length - 1) 0), b'.set (pos - 1) (b'.getD (l.length - 1) 0), (b'.set (pos - 1) (b'.getD (l.length - 1) 0)).take pos,
      ?_, hb.set (by omega), by simpa using hlen, ?_, ?_⟩
    · unfold uniquify
      rw [hck, bind_ok, if_neg (by omega), rd_of_getElem? (getElem?_getD (by omega)), bind_ok]
      have e0 : buf.getD off 0 = l.getD 0 0 := h.get (i := 0) (by omega)
      rw [e0, e, bind_ok]
      simp only
      rw [rd_of_getElem? (getElem?_getD (by omega)), bind_ok, hlast, wr_ok (by omega), bind_ok]
      congr 2
      simp
      omega
    · have : ((b'.set (pos - 1) (b'.getD (l.length - 1) 0)).take pos).length = pos := by simp; omega
      rw [this]
    · have hul : ((b'.set (pos - 1) (b'.getD (l.length - 1) 0)).take pos).length = pos := by simp; omega
      have hu : ∀ k, k < pos → ((b'.set (pos - 1) (b'.getD (l.length - 1) 0)).take pos).getD k 0 = if k = pos - 1 then l.getD (l.length - 1) 0 else b'.getD k 0 := by
        intro k hk
        rw [getD_take hk, getD_set' (by omega), hblast]
      have hge : b'.getD (pos - 1) 0 ≤ l.getD (l.length - 1) 0 := by
        obtain ⟨t, h1, h2⟩ := inv.mem (pos - 1) (by omega)
        rw [← h2]
        exact sorted_getD hs (by omega) (by omega)
      have hle' : l.getD (l.length - 1) 0 ≤ b'.getD (pos - 1) 0 + tol := by
        have := apart_mono ht inv.apart (show kl ≤ pos - 1 by omega) (by omega)
        linarith
      refine ⟨?_, ?_, ?_, ?_⟩
      · intro k hk
        rw [hul] at hk
        rw [hu k (by omega), hu (k + 1) hk, if_neg (by omega)]
        have := inv.apart k hk
        split
        · rename_i hk'
          rw [hk'] at this
          linarith
        · exact this
      · intro x hx
        obtain ⟨k, hk, rfl⟩ := mem_getD hx
        rw [hul] at hk
        rw [hu k hk]
        split
        · exact getD_mem (by omega)
        · obtain ⟨t, h1, h2⟩ := inv.mem k hk
          rw [← h2]
          exact getD_mem (by omega)
      · intro v hv
        obtain ⟨t, h1, rfl⟩ := mem_getD hv
        obtain ⟨k, hk, g1, g2⟩ := inv.near t h1
        refine ⟨k, by omega, ?_⟩
        rw [hu k hk]
        split
        · rename_i hk'
          subst hk'
          have := htop _ hv
          exact ⟨by linarith, by linarith⟩
        · exact ⟨by linarith, by linarith⟩
      · intro v hv
        rw [hul, hu _ (by omega), if_pos rfl]
        exact htop v hv

end Opm.UniquePoints
