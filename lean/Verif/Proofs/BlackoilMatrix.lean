import Verif.Proofs.Blackoil
/-!
# Helper lemmas for the matrix of black-oil properties
-/

namespace Opm.Blackoil
open Opm Opm.Pvt Opm.Rock Opm.UniquePoints

theorem zeros_ok {base k : Nat} {a : List Rat} (h : base + k ≤ a.length) :
    ∃ t, zeros base k a = .ok t ∧ t.length = a.length ∧ (∀ j, j < k → t.getD (base + j) 0 = 0) ∧ ∀ m, (∀ j, j < k → base + j ≠ m) → t.getD m 0 = a.getD m 0 :=
  loop_writes (fun j => base + j) (fun _ => 0) (fun i hi => by omega) (fun i j _ _ e => by omega) (fun i t hi _ _ => rfl)

theorem diag_ne {np i j : Nat} (e : i + i * np = j + j * np) : i = j := by
  have : (np + 1) * i = (np + 1) * j := by rw [Nat.add_mul, Nat.add_mul]; rw [Nat.mul_comm np i, Nat.mul_comm np j]; omega
  exact Nat.eq_of_mul_eq_mul_left (by omega) this

theorem entry_lt {np r c : Nat} (hr : r < np) (hc : c < np) : c * np + r < np * np := by
  have : (c + 1) * np ≤ np * np := Nat.mul_le_mul_right _ hc
  rw [Nat.add_mul] at this
  omega

theorem entry_inj {np r c r' c' : Nat} (hr : r < np) (hr' : r' < np) (e : c * np + r = c' * np + r') : c = c' ∧ r = r' := by
  have h : c = c' := by
    by_contra hn
    rcases Nat.lt_or_gt_of_ne hn with q | q
    · have : (c + 1) * np ≤ c' * np := Nat.mul_le_mul_right _ q
      rw [Nat.add_mul] at this
      omega
    · have : (c' + 1) * np ≤ c * np := Nat.mul_le_mul_right _ q
      rw [Nat.add_mul] at this
      omega
  subst h
  exact ⟨rfl, by omega⟩

theorem diagonal_ok {np base : Nat} {B : List Rat} {k : Nat} {a : List Rat} (h : base + np * np ≤ a.length) (hB : k + np ≤ B.length) (h0 : ∀ c, c < np → B.getD (k + c) 0 ≠ 0) :
    ∃ t, diagonal np base B k a = .ok t ∧ t.length = a.length ∧ (∀ c, c < np → t.getD (base + (c + c * np)) 0 = 1 / B.getD (k + c) 0) ∧
      ∀ m, (∀ c, c < np → base + (c + c * np) ≠ m) → t.getD m 0 = a.getD m 0 := by
  refine loop_writes (fun c => base + (c + c * np)) (fun c => 1 / B.getD (k + c) 0) (fun c hc => ?_) (fun i j _ _ e => diag_ne (np := np) (by omega)) (fun c t hc _ _ => ?_)
  · have := entry_lt hc hc
    omega
  · rw [rd_of_getElem? (getElem?_getD (by omega)), bind_ok, fdiv_ok (h0 c hc), bind_ok]

theorem quotient_ok {B R : List Rat} {j k : Nat} {a : List Rat} (hR : j < R.length) (hB : j < B.length) (h0 : B.getD j 0 ≠ 0) (hk : k < a.length) :
    quotient B R j k a = .ok (a.set k (R.getD j 0 / B.getD j 0)) := by
  unfold quotient
  rw [rd_of_getElem? (getElem?_getD hR), bind_ok, rd_of_getElem? (getElem?_getD hB), bind_ok, fdiv_ok h0, bind_ok, wr_ok hk]

/-- The matrix of one point. -/
theorem pointMatrix_ok {np : Nat} {og : Bool} {o g : Nat} (hog : og = true → o < np ∧ g < np ∧ o ≠ g) {B R : List Rat} {i : Nat} {a : List Rat} (ha : i * (np * np) + np * np ≤ a.length) (hB : i * np + np ≤ B.length)
    (hR : i * np + np ≤ R.length) (h0 : ∀ c, c < np → B.getD (i * np + c) 0 ≠ 0) :
    ∃ t, pointMatrix np og o g B R i a = .ok t ∧ t.length = a.length ∧
      (∀ r c, r < np → c < np → t.getD (i * (np * np) + (c * np + r)) 0 = entry og o g (fun c => B.getD (i * np + c) 0) (fun c => R.getD (i * np + c) 0) r c) ∧
      ∀ m, (∀ j, j < np * np → i * (np * np) + j ≠ m) → t.getD m 0 = a.getD m 0 := by
  have eb : i * np * np = i * (np * np) := Nat.mul_assoc _ _ _
  obtain ⟨t1, e1, l1, v1, u1⟩ := zeros_ok (base := i * (np * np)) (k := np * np) ha
  obtain ⟨t2, e2, l2, v2, u2⟩ := diagonal_ok (np := np) (base := i * (np * np)) (B := B) (k := i * np) (a := t1) (by omega) hB h0
  unfold pointMatrix
  simp only [eb]
  rw [e1, bind_ok, e2, bind_ok]
  have base2 : ∀ r c, r < np → c < np → t2.getD (i * (np * np) + (c * np + r)) 0 = if r = c then 1 / B.getD (i * np + c) 0 else 0 := by
    intro r c hr hc
    by_cases h : r = c
    · subst h
      rw [if_pos rfl, Nat.add_comm (r * np) r]
      exact v2 r hr
    · rw [if_neg h, u2 _ (fun d hd e => ?_), v1 _ (entry_lt hr hc)]
      have := entry_inj hd hr (show d * np + d = c * np + r by omega)
      omega
  have out2 : ∀ m, (∀ j, j < np * np → i * (np * np) + j ≠ m) → t2.getD m 0 = a.getD m 0 := by
    intro m hm
    rw [u2 m (fun c hc => by have := hm (c + c * np) (by have := entry_lt hc hc; omega); exact this), u1 m hm]
  cases og with
  | false =>
    refine ⟨t2, rfl, by omega, fun r c hr hc => ?_, out2⟩
    rw [base2 r c hr hc]
    unfold entry
    split
    · rfl
    · simp
  | true =>
    obtain ⟨ho, hg, hne⟩ := hog rfl
    have L1 := entry_lt ho hg
    have L2 := entry_lt hg ho
    rw [if_pos rfl, quotient_ok (by omega) (by omega) (h0 g hg) (by omega), bind_ok, quotient_ok (by omega) (by omega) (h0 o ho) (by rw [List.length_set]; omega)]
    refine ⟨_, rfl, by simp only [List.length_set]; omega, fun r c hr hc => ?_, fun m hm => ?_⟩
    · rw [getD_set' (by rw [List.length_set]; omega), getD_set' (by omega), base2 r c hr hc]
      unfold entry
      by_cases h1 : r = g ∧ c = o
      · obtain ⟨rfl, rfl⟩ := h1
        rw [if_pos (by omega), if_neg (by omega), if_pos ⟨rfl, Or.inr ⟨rfl, rfl⟩⟩]
      · rw [if_neg (fun e => h1 (by have := entry_inj hr hg (show c * np + r = o * np + g by omega); exact ⟨this.2, this.1⟩))]
        by_cases h2 : r = o ∧ c = g
        · obtain ⟨rfl, rfl⟩ := h2
          rw [if_pos (by omega), if_neg hne, if_pos ⟨rfl, Or.inl ⟨rfl, rfl⟩⟩]
        · rw [if_neg (fun e => h2 (by have := entry_inj hr ho (show c * np + r = g * np + o by omega); exact ⟨this.2, this.1⟩))]
          split
          · rfl
          · rw [if_neg (by rintro ⟨_, h | h⟩; exact h2 h; exact h1 h)]
    · have n1 := hm (g + o * np) (by omega)
      have n2 := hm (o + g * np) (by omega)
      rw [getD_set' (by rw [List.length_set]; omega), if_neg (fun e => n1 e.symm), getD_set' (by omega), if_neg (fun e => n2 e.symm), out2 m hm]

/-- All entries of a matrix. -/
theorem eachEntry_ok {np base : Nat} {h : Nat → Rat → M Rat} (v : Nat → Rat → Rat) {a : List Rat} (ha : base + np * np ≤ a.length) (hh : ∀ c x, c < np → h c x = .ok (v c x)) :
    ∃ t, eachEntry np base h a = .ok t ∧ t.length = a.length ∧ (∀ r c, r < np → c < np → t.getD (base + (c * np + r)) 0 = v c (a.getD (base + (c * np + r)) 0)) ∧
      ∀ m, (∀ j, j < np * np → base + j ≠ m) → t.getD m 0 = a.getD m 0 := by
  unfold eachEntry
  obtain ⟨t, e, l, w, u⟩ := loop_blocks (n := np) (s := a) (f := fun col a => loop np (fun row a => do
      let x ← rd a (base + (col * np + row))
      let y ← h col x
      wr a (base + (col * np + row)) y) a) base np (fun c r => v c (a.getD (base + (c * np + r)) 0)) (by
    intro c t hc lt ht
    have hlt : ∀ r, r < np → base + (c * np + r) < t.length := fun r hr => by have := entry_lt hr hc; omega
    obtain ⟨t', e, l, w, u⟩ := loop_writes (n := np) (s := t) (f := fun row a => do
        let x ← rd a (base + (c * np + row))
        let y ← h c x
        wr a (base + (c * np + row)) y) (fun r => base + (c * np + r)) (fun r => v c (t.getD (base + (c * np + r)) 0)) hlt (fun i j _ _ e => by omega) (by
      intro r t'' hr lt' e
      rw [rd_of_getElem? (getElem?_getD (by rw [lt']; exact hlt r hr)), bind_ok, hh c _ hc, bind_ok, e])
    exact ⟨t', e, by omega, fun r hr => by rw [w r hr, ht r hr], fun k hk => u k hk⟩)
  refine ⟨t, e, l, fun r c hr hc => w c r hc hr, fun m hm => u m (fun c r hc hr => hm _ (entry_lt hr hc))⟩

theorem addTo_ok {dR : List Rat} {j k : Nat} {a : List Rat} (hj : j < dR.length) (hk : k < a.length) : addTo dR j k a = .ok (a.set k (a.getD k 0 + dR.getD j 0)) := by
  unfold addTo
  rw [rd_of_getElem? (getElem?_getD hk), bind_ok, rd_of_getElem? (getElem?_getD hj), bind_ok, wr_ok hk]

/-- What is added for oil and gas. -/
def dPart (og : Bool) (o g : Nat) (dR : Nat → Rat) (r c : Nat) : Rat := if og = true ∧ ((r = o ∧ c = g) ∨ (r = g ∧ c = o)) then dR c else 0

/-- The derivative of one point. -/
theorem pointDeriv_ok {np : Nat} {og : Bool} {o g : Nat} (hog : og = true → o < np ∧ g < np ∧ o ≠ g) {B dB dR : List Rat} {i : Nat} {a : List Rat} (ha : i * (np * np) + np * np ≤ a.length) (hB : i * np + np ≤ B.length)
    (hdB : i * np + np ≤ dB.length) (hR : i * np + np ≤ dR.length) (h0 : ∀ c, c < np → B.getD (i * np + c) 0 ≠ 0) :
    ∃ t, pointDeriv np og o g B dB dR i a = .ok t ∧ t.length = a.length ∧
      (∀ r c, r < np → c < np → t.getD (i * (np * np) + (c * np + r)) 0 =
        (a.getD (i * (np * np) + (c * np + r)) 0 * -dB.getD (i * np + c) 0 + dPart og o g (fun c => dR.getD (i * np + c) 0) r c) / B.getD (i * np + c) 0) ∧
      ∀ m, (∀ j, j < np * np → i * (np * np) + j ≠ m) → t.getD m 0 = a.getD m 0 := by
  have eb : i * np * np = i * (np * np) := Nat.mul_assoc _ _ _
  obtain ⟨t1, e1, l1, v1, u1⟩ := eachEntry_ok (np := np) (base := i * (np * np)) (h := fun col x => do let d ← rd dB (i * np + col); .ok (x * -d)) (fun c x => x * -dB.getD (i * np + c) 0) ha (by
    intro c x hc
    rw [rd_of_getElem? (getElem?_getD (by omega)), bind_ok])
  unfold pointDeriv
  simp only [eb]
  rw [e1, bind_ok]
  have mid : ∃ t2, addSolution np og o g (i * (np * np)) (i * np) dR t1 = .ok t2 ∧ t2.length = a.length ∧
      (∀ r c, r < np → c < np → t2.getD (i * (np * np) + (c * np + r)) 0 = t1.getD (i * (np * np) + (c * np + r)) 0 + dPart og o g (fun c => dR.getD (i * np + c) 0) r c) ∧
      ∀ m, (∀ j, j < np * np → i * (np * np) + j ≠ m) → t2.getD m 0 = t1.getD m 0 := by
    cases og with
    | false => exact ⟨t1, rfl, l1, fun r c _ _ => by simp [dPart], fun _ _ => rfl⟩
    | true =>
      obtain ⟨ho, hg, hne⟩ := hog rfl
      have L1 := entry_lt ho hg
      have L2 := entry_lt hg ho
      unfold addSolution
      rw [if_pos rfl, addTo_ok (by omega) (by omega), bind_ok, addTo_ok (by omega) (by rw [List.length_set]; omega)]
      refine ⟨_, rfl, by simp only [List.length_set]; omega, fun r c hr hc => ?_, fun m hm => ?_⟩
      · rw [getD_set' (by rw [List.length_set]; omega), getD_set' (by omega), getD_set' (by omega)]
        unfold dPart
        by_cases h1 : r = o ∧ c = g
        · obtain ⟨rfl, rfl⟩ := h1
          have : i * (np * np) + (c * np + r) ≠ i * (np * np) + (r * np + c) := fun e => by
            have := entry_inj hr hc (show c * np + r = r * np + c by omega)
            omega
          rw [if_pos rfl, if_neg this, if_pos ⟨rfl, Or.inl ⟨rfl, rfl⟩⟩]
        · rw [if_neg (fun e => h1 (by have := entry_inj hr ho (show c * np + r = g * np + o by omega); exact ⟨this.2, this.1⟩))]
          by_cases h2 : r = g ∧ c = o
          · obtain ⟨rfl, rfl⟩ := h2
            rw [if_pos rfl, if_pos ⟨rfl, Or.inr ⟨rfl, rfl⟩⟩]
          · rw [if_neg (fun e => h2 (by have := entry_inj hr hg (show c * np + r = o * np + g by omega); exact ⟨this.2, this.1⟩)), if_neg (by rintro ⟨_, h | h⟩; exact h1 h; exact h2 h), add_zero]
      · have n1 := hm (o * np + g) (by omega)
        have n2 := hm (g * np + o) (by omega)
        rw [getD_set' (by rw [List.length_set]; omega), if_neg (fun e => n2 e.symm), getD_set' (by omega), if_neg (fun e => n1 e.symm)]
  obtain ⟨t2, e2, l2, v2, u2⟩ := mid
  obtain ⟨t3, e3, l3, v3, u3⟩ := eachEntry_ok (np := np) (base := i * (np * np)) (h := fun col x => do let b ← rd B (i * np + col); fdiv x b) (a := t2) (fun c x => x / B.getD (i * np + c) 0) (by omega) (by
    intro c x hc
    rw [rd_of_getElem? (getElem?_getD (by omega)), bind_ok, fdiv_ok (h0 c hc)])
  rw [e2, bind_ok]
  refine ⟨t3, e3, by omega, fun r c hr hc => ?_, fun m hm => by rw [u3 m hm, u2 m hm, u1 m hm]⟩
  rw [v3 r c hr hc, v2 r c hr hc, v1 r c hr hc]

end Opm.Blackoil
