import Mathlib.Tactic.Ring
import Mathlib.Tactic.NormNum
import Verif.Core.Cursor
import Verif.Spec.Slice
/-!
# Tables enumerated by nested loops
-/

namespace Opm

variable {α β : Type _}

/-! ### The numbering `i + a (j + b k)` -/

theorem idx2_lt {a b i j : Nat} (hi : i < a) (hj : j < b) : i + a * j < a * b := by
  have : a * (j + 1) ≤ a * b := Nat.mul_le_mul_left a hj
  rw [Nat.mul_add, Nat.mul_one] at this
  omega

theorem idx2_inj {a i j i' j' : Nat} (hi : i < a) (hi' : i' < a) (h : i + a * j = i' + a * j') : i = i' ∧ j = j' := by
  have h1 : (i + a * j) % a = (i' + a * j') % a := by rw [h]
  have h2 : (i + a * j) / a = (i' + a * j') / a := by rw [h]
  rw [Nat.add_mul_mod_self_left, Nat.add_mul_mod_self_left, Nat.mod_eq_of_lt hi, Nat.mod_eq_of_lt hi'] at h1
  rw [Nat.add_mul_div_left _ _ (by omega), Nat.add_mul_div_left _ _ (by omega), Nat.div_eq_of_lt hi, Nat.div_eq_of_lt hi'] at h2
  omega

theorem idx2_surj {a b n : Nat} (h : n < a * b) : ∃ i j, i < a ∧ j < b ∧ n = i + a * j := by
  have ha : 0 < a := by
    rcases Nat.eq_zero_or_pos a with h0 | h0
    · rw [h0, Nat.zero_mul] at h; omega
    · exact h0
  refine ⟨n % a, n / a, Nat.mod_lt _ ha, ?_, (Nat.mod_add_div n a).symm⟩
  exact Nat.div_lt_of_lt_mul h

theorem idx3_lt {a b c i j k : Nat} (hi : i < a) (hj : j < b) (hk : k < c) : i + a * (j + b * k) < a * b * c := by
  rw [Nat.mul_assoc]
  exact idx2_lt hi (idx2_lt hj hk)

theorem idx3_inj {a b i j k i' j' k' : Nat} (hi : i < a) (hi' : i' < a) (hj : j < b) (hj' : j' < b)
    (h : i + a * (j + b * k) = i' + a * (j' + b * k')) : i = i' ∧ j = j' ∧ k = k' := by
  obtain ⟨h1, h2⟩ := idx2_inj hi hi' h
  exact ⟨h1, idx2_inj hj hj' h2⟩

theorem idx3_surj {a b c n : Nat} (h : n < a * b * c) : ∃ i j k, i < a ∧ j < b ∧ k < c ∧ n = i + a * (j + b * k) := by
  rw [Nat.mul_assoc] at h
  obtain ⟨i, m, hi, hm, rfl⟩ := idx2_surj h
  obtain ⟨j, k, hj, hk, rfl⟩ := idx2_surj hm
  exact ⟨i, j, k, hi, hj, hk, rfl⟩

/-! ### Rows of equal length -/

theorem length_flatMap_const {l : List β} {f : β → List α} {d : Nat} (h : ∀ x ∈ l, (f x).length = d) : (l.flatMap f).length = l.length * d := by
  induction l with
  | nil => simp
  | cons x l ih =>
    rw [List.flatMap_cons, List.length_append, h x List.mem_cons_self, ih (fun y hy => h y (List.mem_cons_of_mem _ hy)), List.length_cons, Nat.succ_mul,
      Nat.add_comm]

theorem getElem?_flatMap_const {l : List β} {f : β → List α} {d : Nat} (h : ∀ x ∈ l, (f x).length = d) {n t : Nat} {x : β} (hx : l[n]? = some x)
    (ht : t < d) : (l.flatMap f)[d * n + t]? = (f x)[t]? := by
  induction l generalizing n with
  | nil => cases hx
  | cons y l ih =>
    have hy := h y List.mem_cons_self
    rw [List.flatMap_cons]
    cases n with
    | zero =>
      cases hx
      rw [List.getElem?_append_left (by omega)]
      congr 1
      omega
    | succ n =>
      rw [List.getElem?_append_right (by rw [hy, Nat.mul_succ]; omega), hy]
      rw [show d * (n + 1) + t - d = d * n + t by rw [Nat.mul_succ]; omega]
      exact ih (fun y hy => h y (List.mem_cons_of_mem _ hy)) hx

/-- Row `n` of a flattened table. -/
theorem slice_flatMap_const {l : List β} {f : β → List α} {d : Nat} (h : ∀ x ∈ l, (f x).length = d) {n : Nat} {x : β} (hx : l[n]? = some x) :
    slice (l.flatMap f) (d * n) (d * n + d) = .ok (f x) := by
  have hn := (List.getElem?_eq_some_iff.1 hx).1
  have hl := length_flatMap_const h
  have hle : d * n + d ≤ (l.flatMap f).length := by
    rw [hl, Nat.mul_comm l.length, ← Nat.mul_succ]
    exact Nat.mul_le_mul_left d hn
  unfold slice
  rw [if_pos ⟨by omega, hle⟩]
  congr 1
  apply List.ext_getElem?
  intro t
  rw [List.getElem?_drop, List.getElem?_take]
  have hfx := h x (List.mem_of_getElem? hx)
  by_cases ht : t < d
  · rw [if_pos (by omega), getElem?_flatMap_const h hx ht]
  · rw [if_neg (by omega), List.getElem?_eq_none (by omega)]

/-! ### Tables -/

/-- The records `r i j` in the order `j` outer, `i` inner. -/
def tab2 (a b : Nat) (r : Nat → Nat → β) : List β := (List.range b).flatMap fun j => (List.range a).flatMap fun i => [r i j]

/-- The records `r i j k` in the order `k` outer, `i` inner. -/
def tab3 (a b c : Nat) (r : Nat → Nat → Nat → β) : List β := (List.range c).flatMap fun k => tab2 a b (fun i j => r i j k)

theorem length_tab2 (a b : Nat) (r : Nat → Nat → β) : (tab2 a b r).length = a * b := by
  unfold tab2
  rw [length_flatMap_const (d := a) (fun j _ => by rw [length_flatMap_const (d := 1) (fun _ _ => rfl)]; simp), List.length_range, Nat.mul_comm]

theorem length_tab3 (a b c : Nat) (r : Nat → Nat → Nat → β) : (tab3 a b c r).length = a * b * c := by
  unfold tab3
  rw [length_flatMap_const (d := a * b) (fun k _ => length_tab2 _ _ _), List.length_range, Nat.mul_comm]

theorem getElem?_tab2 {a b i j : Nat} (r : Nat → Nat → β) (hi : i < a) (hj : j < b) : (tab2 a b r)[i + a * j]? = some (r i j) := by
  unfold tab2
  rw [Nat.add_comm, getElem?_flatMap_const (d := a) (fun j _ => by rw [length_flatMap_const (d := 1) (fun _ _ => rfl)]; simp)
    (List.getElem?_range hj) hi]
  have := getElem?_flatMap_const (l := List.range a) (f := fun i => [r i j]) (d := 1) (fun _ _ => rfl) (List.getElem?_range hi) (t := 0) (by omega)
  simpa using this

theorem getElem?_tab3 {a b c i j k : Nat} (r : Nat → Nat → Nat → β) (hi : i < a) (hj : j < b) (hk : k < c) :
    (tab3 a b c r)[i + a * (j + b * k)]? = some (r i j k) := by
  unfold tab3
  rw [show i + a * (j + b * k) = a * b * k + (i + a * j) by ring,
    getElem?_flatMap_const (d := a * b) (fun k _ => length_tab2 _ _ _) (List.getElem?_range hk) (idx2_lt hi hj)]
  exact getElem?_tab2 _ hi hj

theorem mem_tab2 {a b : Nat} {r : Nat → Nat → β} {x : β} (h : x ∈ tab2 a b r) : ∃ i j, i < a ∧ j < b ∧ x = r i j := by
  unfold tab2 at h
  simp only [List.mem_flatMap, List.mem_range, List.mem_singleton] at h
  obtain ⟨j, hj, i, hi, rfl⟩ := h
  exact ⟨i, j, hi, hj, rfl⟩

theorem mem_tab3 {a b c : Nat} {r : Nat → Nat → Nat → β} {x : β} (h : x ∈ tab3 a b c r) : ∃ i j k, i < a ∧ j < b ∧ k < c ∧ x = r i j k := by
  unfold tab3 at h
  rw [List.mem_flatMap] at h
  obtain ⟨k, hk, h⟩ := h
  obtain ⟨i, j, hi, hj, rfl⟩ := mem_tab2 h
  exact ⟨i, j, k, hi, hj, List.mem_range.1 hk, rfl⟩

/-- Two nested loops that append one record per iteration. -/
theorem loop2_emit {S : Type _} (R : S → List β → Prop) (cap : Nat) {a b : Nat} {body : Nat → Nat → S → M S} (r : Nat → Nat → β)
    (hb : ∀ i j, i < a → j < b → ∀ s l, R s l → l.length + 1 ≤ cap → ∃ s', body i j s = .ok s' ∧ R s' (l ++ [r i j]))
    {s : S} {l : List β} (h : R s l) (hc : l.length + a * b ≤ cap) :
    ∃ s', loop b (fun j => loop a (fun i => body i j)) s = .ok s' ∧ R s' (l ++ tab2 a b r) := by
  unfold tab2
  refine loop_emit R cap _ ?_ h ?_
  · intro j hj s l h hc
    exact loop_emit R cap _ (fun i hi s l h hc => hb i j hi hj s l h hc) h hc
  · have := length_tab2 a b r
    unfold tab2 at this
    omega

/-- Three nested loops that append one record per iteration. -/
theorem loop3_emit {S : Type _} (R : S → List β → Prop) (cap : Nat) {a b c : Nat} {body : Nat → Nat → Nat → S → M S} (r : Nat → Nat → Nat → β)
    (hb : ∀ i j k, i < a → j < b → k < c → ∀ s l, R s l → l.length + 1 ≤ cap → ∃ s', body i j k s = .ok s' ∧ R s' (l ++ [r i j k]))
    {s : S} {l : List β} (h : R s l) (hc : l.length + a * b * c ≤ cap) :
    ∃ s', loop c (fun k => loop b (fun j => loop a (fun i => body i j k))) s = .ok s' ∧ R s' (l ++ tab3 a b c r) := by
  unfold tab3
  refine loop_emit R cap _ ?_ h ?_
  · intro k hk s l h hc
    rw [length_tab2] at hc
    exact loop2_emit R cap _ (fun i j hi hj s l h hc => hb i j k hi hj hk s l h hc) h hc
  · have := length_tab3 a b c r
    unfold tab3 at this
    omega

end Opm
