import Verif.Spec.Graph
import Mathlib.Tactic.Conv
/-!
# Lemmas about lists, block boundaries and compressed rows
-/

namespace Opm.Graph

/-! ### Lists -/

theorem drop_set_self {α : Type _} (l : List α) (i : Nat) (x : α) (h : i < l.length) :
    (l.set i x).drop i = x :: l.drop (i + 1) := by
  rw [List.drop_eq_getElem_cons (by simpa using h)]
  simp [List.drop_set]

theorem drop_set_lt {α : Type _} (l : List α) (i m : Nat) (x : α) (h : i < m) :
    (l.set i x).drop m = l.drop m := by
  rw [List.drop_set]; simp [h]

theorem take_set_ge {α : Type _} (l : List α) (i m : Nat) (x : α) (h : m ≤ i) :
    (l.set i x).take m = l.take m := List.take_set_of_le h

theorem take_set_self {α : Type _} (l : List α) (i : Nat) (x : α) (h : i < l.length) :
    (l.set i x).take (i + 1) = l.take i ++ [x] := by
  rw [List.take_add_one]
  simp [h, List.take_set_of_le]

theorem get_of_drop {α : Type _} {l : List α} {i : Nat} {x : α} {r : List α}
    (h : l.drop i = x :: r) : l[i]? = some x := by
  have : (l.drop i)[0]? = some x := by rw [h]; rfl
  simpa using this

theorem drop_succ_of {α : Type _} {l : List α} {i : Nat} {x : α} {r : List α}
    (h : l.drop i = x :: r) : l.drop (i + 1) = r := by
  have : (l.drop i).drop 1 = r := by rw [h]; rfl
  simpa [List.drop_drop] using this

theorem boundaries_length {α : Type _} (cs : List (List α)) (acc : Nat) :
    (boundaries acc cs).length = cs.length + 1 := by
  induction cs generalizing acc with
  | nil => rfl
  | cons C cs ih => simp [boundaries, ih]

theorem boundaries_snoc {α : Type _} (cs : List (List α)) (C : List α) (acc : Nat) :
    boundaries acc (cs ++ [C]) = boundaries acc cs ++ [acc + cs.flatten.length + C.length] := by
  induction cs generalizing acc with
  | nil => simp [boundaries]
  | cons D cs ih => simp [boundaries, ih, Nat.add_assoc]

/-! ### Adjacency lists -/

/-- adjacency list of `u` -/
def adj (ia ja : List Nat) (u : Nat) : List Nat :=
  (ja.drop (ia.getD u 0)).take (ia.getD (u + 1) 0 - ia.getD u 0)

section wf
variable {nv nc : Nat} {ia ja : List Nat} (wf : CSR nv nc ia ja)
include wf

theorem ia_get {i : Nat} (h : i ≤ nv) : ia[i]? = some (ia.getD i 0) := by
  have : i < ia.length := by rw [wf.len]; omega
  simp [List.getD_eq_getElem?_getD, this]

theorem ia_mono {i j : Nat} (hij : i ≤ j) (hj : j ≤ nv) : ia.getD i 0 ≤ ia.getD j 0 := by
  induction j with
  | zero => obtain rfl : i = 0 := by omega
            exact Nat.le_refl _
  | succ j ih =>
    rcases Nat.lt_or_ge i (j + 1) with h | h
    · have h1 := ih (by omega) (by omega)
      have h2 := wf.mono j _ _ (ia_get wf (by omega)) (ia_get wf hj)
      omega
    · obtain rfl : i = j + 1 := by omega
      exact Nat.le_refl _

theorem ia_bound {i : Nat} (h : i ≤ nv) : ia.getD i 0 ≤ ja.length :=
  Nat.le_trans (ia_mono wf h (Nat.le_refl _)) (wf.bound _ (ia_get wf (Nat.le_refl _)))

theorem adj_length {u : Nat} (hu : u < nv) :
    (adj ia ja u).length = ia.getD (u + 1) 0 - ia.getD u 0 := by
  have := ia_bound wf (i := u + 1) hu
  have := ia_mono wf (i := u) (j := u + 1) (by omega) hu
  simp only [adj, List.length_take, List.length_drop]
  omega

theorem adj_get {u k : Nat} (hu : u < nv) (hk : k < (adj ia ja u).length) :
    (adj ia ja u)[k]? = ja[ia.getD u 0 + k]? := by
  rw [adj_length wf hu] at hk
  simp only [adj, List.getElem?_take, if_pos hk, List.getElem?_drop]

theorem edge_iff {u w : Nat} (hu : u < nv) : Edge ia ja u w ↔ w ∈ adj ia ja u := by
  constructor
  · rintro ⟨a, b, e, ha, hb, h1, h2, he⟩
    rw [ia_get wf (by omega)] at ha
    rw [ia_get wf (i := u + 1) hu] at hb
    cases ha; cases hb
    refine List.mem_iff_getElem?.2 ⟨e - ia.getD u 0, ?_⟩
    rw [adj_get wf hu (by rw [adj_length wf hu]; omega)]
    rw [← he]; congr 1; omega
  · intro h
    obtain ⟨k, hk⟩ := List.mem_iff_getElem?.1 h
    have hkl := (List.getElem?_eq_some_iff.1 hk).1
    rw [adj_get wf hu hkl] at hk
    rw [adj_length wf hu] at hkl
    exact ⟨_, _, _, ia_get wf (by omega), ia_get wf hu, Nat.le_add_right _ k, by omega, hk⟩

theorem edge_lt {u w : Nat} (h : Edge ia ja u w) : u < nv := by
  obtain ⟨_, b, _, _, hb, _⟩ := h
  have := (List.getElem?_eq_some_iff.1 hb).1
  rw [wf.len] at this
  omega

theorem adj_lt {u : Nat} (hu : u < nv) {w : Nat} (hw : w ∈ adj ia ja u) : w < nc := by
  obtain ⟨a, b, e, ha, hb, h1, h2, he⟩ := (edge_iff wf hu).2 hw
  rw [ia_get wf (i := u + 1) hu] at hb
  cases hb
  have := ia_mono wf (i := u + 1) (j := nv) hu (Nat.le_refl _)
  exact wf.range _ e w (ia_get wf (Nat.le_refl _)) (by omega) he

end wf

theorem boundaries_get {α : Type _} (cs : List (List α)) (acc i : Nat) (h : i ≤ cs.length) :
    (boundaries acc cs)[i]? = some (acc + (cs.take i).flatten.length) := by
  induction cs generalizing acc i with
  | nil => obtain rfl : i = 0 := by simpa using h
           simp [boundaries]
  | cons C cs ih =>
    cases i with
    | zero => simp [boundaries]
    | succ i =>
      simp only [boundaries, List.getElem?_cons_succ]
      rw [ih _ i (by simpa using h)]
      simp [Nat.add_assoc]

theorem boundaries_app_get {α : Type _} (cs : List (List α)) (tail : List Nat) (i : Nat)
    (h : i ≤ cs.length) :
    (boundaries 0 cs ++ tail)[i]? = some ((cs.take i).flatten.length) := by
  rw [List.getElem?_append_left (by rw [boundaries_length]; omega), boundaries_get _ _ _ h,
    Nat.zero_add]

theorem block_eq (cs : List (List Nat)) (tail : List Nat) {i : Nat} {C : List Nat}
    (h : cs[i]? = some C) : block cs.flatten (boundaries 0 cs ++ tail) i = C := by
  obtain ⟨hi, rfl⟩ := List.getElem?_eq_some_iff.1 h
  unfold block
  rw [boundaries_app_get _ _ _ (by omega), boundaries_app_get _ _ (i + 1) (by omega)]
  simp only
  have h1 : (cs.take (i + 1)).flatten = (cs.take i).flatten ++ cs[i] := by
    rw [List.take_add_one, h, List.flatten_append]; simp
  have h2 : cs.flatten = (cs.take i).flatten ++ (cs[i] ++ (cs.drop (i + 1)).flatten) := by
    have h3 : (cs.drop i).flatten = cs[i] ++ (cs.drop (i + 1)).flatten := by
      rw [List.drop_eq_getElem_cons hi, List.flatten_cons]
    rw [← h3, ← List.flatten_append, List.take_append_drop]
  rw [h1, List.length_append]
  conv_lhs => rw [h2]
  rw [List.drop_left']
  · have e : (cs.take i).flatten.length + cs[i].length - (cs.take i).flatten.length = cs[i].length := by omega
    rw [e, List.take_left']
    rfl
  · rfl

/-! ### Building a compressed-row structure row by row -/

theorem csr_of_rows {α : Type _} (rows : List (List α)) (acc : Nat) (i a b : Nat)
    (ha : (boundaries acc rows)[i]? = some a) (hb : (boundaries acc rows)[i + 1]? = some b) : a ≤ b := by
  have hi : i + 1 < (boundaries acc rows).length := (List.getElem?_eq_some_iff.1 hb).1
  rw [boundaries_length] at hi
  rw [boundaries_get _ _ _ (by omega)] at ha hb
  cases ha; cases hb
  have : (rows.take (i + 1)).flatten = (rows.take i).flatten ++ rows[i] := by
    rw [List.take_add_one, List.getElem?_eq_getElem (by omega), List.flatten_append]; simp
  rw [this, List.length_append]; omega

/-- The rows `rows` stored consecutively form a compressed-row structure. -/
theorem csr_rows {nc : Nat} (rows : List (List Nat)) (tail : List Nat)
    (h : ∀ r ∈ rows, ∀ w ∈ r, w < nc) : CSR rows.length nc (boundaries 0 rows) (rows.flatten ++ tail) where
  len := boundaries_length rows 0
  mono := csr_of_rows rows 0
  bound := by
    intro a ha
    rw [boundaries_get _ _ _ (Nat.le_refl _)] at ha
    cases ha
    simp
  range := by
    intro a e w ha he hw
    rw [boundaries_get _ _ _ (Nat.le_refl _)] at ha
    cases ha
    simp only [List.take_length, Nat.zero_add] at he
    rw [List.getElem?_append_left he] at hw
    obtain ⟨r, hr, hw⟩ := List.mem_flatten.1 (List.mem_of_getElem? hw)
    exact h r hr w hw

theorem adj_rows (rows : List (List Nat)) (tail : List Nat) {i : Nat} {r : List Nat}
    (h : rows[i]? = some r) : adj (boundaries 0 rows) (rows.flatten ++ tail) i = r := by
  obtain ⟨hi, rfl⟩ := List.getElem?_eq_some_iff.1 h
  have hb := block_eq rows [] h
  unfold block at hb
  simp only [List.append_nil] at hb
  rw [boundaries_get _ _ _ (by omega), boundaries_get _ _ (i + 1) (by omega)] at hb
  simp only [Nat.zero_add] at hb
  unfold adj
  simp only [List.getD_eq_getElem?_getD]
  rw [boundaries_get _ _ i (by omega), boundaries_get _ _ (i + 1) (by omega)]
  simp only [Option.getD_some, Nat.zero_add]
  have h1 : (rows.take (i + 1)).flatten = (rows.take i).flatten ++ rows[i] := by
    rw [List.take_add_one, h, List.flatten_append]; simp
  have h2 : rows.flatten = (rows.take (i + 1)).flatten ++ (rows.drop (i + 1)).flatten := by
    rw [← List.flatten_append, List.take_append_drop]
  have h3 : (rows.take (i + 1)).flatten.length ≤ rows.flatten.length := by
    rw [h2]; simp
  rw [h1, List.length_append] at h3
  rw [List.drop_append_of_le_length (by omega), List.take_append_of_le_length]
  · exact hb
  · rw [h1, List.length_append, List.length_drop]; omega

end Opm.Graph
