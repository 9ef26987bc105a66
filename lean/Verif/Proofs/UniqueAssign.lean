import Verif.Proofs.UniquePillars
/-! # Points on pillars: numbers of corners -/

namespace Opm.UniquePoints
open Opm

theorem advance_ok {zlist : List Rat} {tol z : Rat} {e : Nat} (he : e ≤ zlist.length) (fuel : Nat) : ∀ k, k + fuel = e →
    ∃ k', advance zlist tol z e fuel k = .ok k' ∧ k ≤ k' ∧ k' ≤ e ∧ (∀ m, k ≤ m → m < k' → zlist.getD m 0 + tol < z) ∧ (k' < e → ¬ zlist.getD k' 0 + tol < z) := by
  induction fuel with
  | zero => exact fun k hk => ⟨k, rfl, le_refl _, by omega, fun m h h' => by omega, fun h => by omega⟩
  | succ fuel ih =>
    intro k hk
    unfold advance
    rw [if_pos (by omega), rdGet (d := 0) (by omega), bind_ok]
    by_cases h : zlist.getD k 0 + tol < z
    · rw [if_pos h]
      obtain ⟨k', e1, h1, h2, h3, h4⟩ := ih (k + 1) (by omega)
      refine ⟨k', e1, by omega, h2, fun m hm hm' => ?_, h4⟩
      rcases Nat.lt_or_ge k m with h' | h'
      · exact h3 m h' hm'
      · obtain rfl : m = k := by omega
        exact h
    · rw [if_neg h]
      exact ⟨k, rfl, le_refl _, by omega, fun m h h' => by omega, fun _ => h⟩

theorem getElem?_set_ne' {l : List Int} {i j : Nat} {v : Int} (h : j ≠ i) : (l.set i v)[j]? = l[j]? := by
  rw [List.getElem?_set, if_neg (Ne.symm h)]

theorem getElem?_set_eq' {l : List Int} {i : Nat} {v : Int} (h : i < l.length) : (l.set i v)[i]? = some v := by
  rw [List.getElem?_set, if_pos rfl, if_pos h]

/-- Invariant of `assignPointNumbers` after `i` corners. -/
structure AInv (act : Nat → Prop) (zc : Nat → Rat) (zlist : List Rat) (tol : Rat) (b e p : Nat) (plist : List Int) (i : Nat) (s : Assign) : Prop where
  here : s.p = p + 1 + i
  len : s.plist.length = plist.length
  ge : b ≤ s.k
  lt : b < e → s.k < e
  out : ∀ t, t < p ∨ p + 1 + i ≤ t → s.plist[t]? = plist[t]?
  top : s.plist[p]? = some intMin
  inactive : ∀ K, K < i → ¬ act K → s.plist[p + 1 + K]? = s.plist[p + K]?
  active : ∀ K, K < i → act K → ∃ k : Nat, s.plist[p + 1 + K]? = some (k : Int) ∧ b ≤ k ∧ k < e ∧ k ≤ s.k ∧ zc K ≤ zlist.getD k 0 + tol ∧
    ∀ m, b ≤ m → m < k → ∃ K', K' ≤ K ∧ act K' ∧ zlist.getD m 0 + tol < zc K'
  below : ∀ m, b ≤ m → m < s.k → ∃ K', K' < i ∧ act K' ∧ zlist.getD m 0 + tol < zc K'
  last : ∃ x, s.plist[p + i]? = some x ∧ x ≤ s.k
  sorted : ∀ K x y, K < i → s.plist[p + K]? = some x → s.plist[p + 1 + K]? = some y → x ≤ y

theorem assign_step {act : Nat → Prop} {zc : Nat → Rat} {zcorn : List Rat} {actnum : List Int} {begZ begA : Nat}
    (hact : ∀ K, act K ↔ actnum.getD (begA + K / 2) 0 ≠ 0) (hzc : ∀ K, zc K = zcorn.getD (begZ + K) 0) {n : Nat} (ha : ∀ K, K < n → begA + K / 2 < actnum.length)
    (hz : ∀ K, K < n → begZ + K < zcorn.length) {zlist : List Rat} {tol : Rat} (ht : 0 ≤ tol) {b e p : Nat} (he : e ≤ zlist.length)
    (htop : ∀ K, K < n → act K → b < e ∧ zc K ≤ zlist.getD (e - 1) 0) {plist : List Int} (hp : p + 2 + n ≤ plist.length) {i : Nat} (hi : i < n) {s : Assign}
    (h : AInv act zc zlist tol b e p plist i s) :
    ∃ s', assignStep begZ e zlist zcorn begA actnum tol i (some s) = .ok (some s') ∧ AInv act zc zlist tol b e p plist (i + 1) s' := by
  have hpp := h.here
  have hlen := h.len
  unfold assignStep
  simp only
  rw [rdGet (d := 0) (ha i hi), bind_ok]
  obtain ⟨x, ex, hx⟩ := h.last
  by_cases hc : act i
  · have hc' := (hact i).1 hc
    obtain ⟨hbe, hzt⟩ := htop i hi hc
    have hk := h.lt hbe
    rw [if_neg hc', rdGet (d := 0) (hz i hi), bind_ok, ← hzc]
    obtain ⟨k', e1, h1, h2, h3, h4⟩ := advance_ok (zlist := zlist) (tol := tol) (z := zc i) he (e - s.k) s.k (by omega)
    have hk' : k' < e := by
      by_contra hcon
      have := h3 (e - 1) (by omega) (by omega)
      linarith
    rw [e1, bind_ok, if_neg (by omega), rdGet (d := 0) (by omega), bind_ok, if_neg (h4 hk'), wr_ok (by omega), bind_ok]
    refine ⟨_, rfl, ?_⟩
    have hnew : (s.plist.set s.p (k' : Int))[p + 1 + i]? = some (k' : Int) := by rw [← hpp]; exact getElem?_set_eq' (by omega)
    have hold : ∀ t, t ≠ p + 1 + i → (s.plist.set s.p (k' : Int))[t]? = s.plist[t]? := fun t htt => getElem?_set_ne' (by omega)
    have hbel : ∀ m, b ≤ m → m < k' → ∃ K', K' < i + 1 ∧ act K' ∧ zlist.getD m 0 + tol < zc K' := by
      intro m hm hm'
      rcases Nat.lt_or_ge m s.k with hlt | hge
      · obtain ⟨K', g1, g2, g3⟩ := h.below m hm hlt
        exact ⟨K', by omega, g2, g3⟩
      · exact ⟨i, by omega, hc, h3 m hge hm'⟩
    refine ⟨by simp only; omega, by simpa using hlen, ?_, fun _ => hk', ?_, ?_, ?_, ?_, hbel, ?_, ?_⟩
    · have := h.ge
      simp only; omega
    · intro t htt
      simp only
      rw [hold t (by omega)]
      exact h.out t (by omega)
    · simp only
      rw [hold p (by omega)]
      exact h.top
    · intro K hK hna
      simp only
      rcases Nat.lt_or_ge K i with hlt | hge
      · rw [hold _ (by omega), hold _ (by omega)]
        exact h.inactive K hlt hna
      · obtain rfl : K = i := by omega
        exact absurd hc hna
    · intro K hK hact'
      simp only
      rcases Nat.lt_or_ge K i with hlt | hge
      · obtain ⟨k, g1, g2, g3, g4, g5, g6⟩ := h.active K hlt hact'
        exact ⟨k, by rw [hold _ (by omega)]; exact g1, g2, g3, by omega, g5, g6⟩
      · obtain rfl : K = i := by omega
        have := h.ge
        refine ⟨k', hnew, by omega, hk', le_refl _, not_lt.1 (h4 hk'), fun m hm hm' => ?_⟩
        obtain ⟨K', g1, g2, g3⟩ := hbel m hm hm'
        exact ⟨K', by omega, g2, g3⟩
    · exact ⟨k', by simp only; rw [← Nat.add_assoc, Nat.add_right_comm]; exact hnew, le_refl _⟩
    · intro K x' y hK
      simp only
      rcases Nat.lt_or_ge K i with hlt | hge
      · rw [hold _ (by omega), hold _ (by omega)]
        exact h.sorted K x' y hlt
      · obtain rfl : K = i := by omega
        rw [hold _ (by omega), hnew, ex]
        intro a1 a2
        cases a1; cases a2
        exact le_trans hx (by exact_mod_cast h1)
  · have hc' : actnum.getD (begA + i / 2) 0 = 0 := by
      by_contra hh
      exact hc ((hact i).2 hh)
    rw [if_pos hc', rdI_of_getElem? (n := p + i) (by rw [hpp]; push_cast; omega) ex, bind_ok, wr_ok (by omega), bind_ok]
    refine ⟨_, rfl, ?_⟩
    have hnew : (s.plist.set s.p x)[p + 1 + i]? = some x := by rw [← hpp]; exact getElem?_set_eq' (by omega)
    have hold : ∀ t, t ≠ p + 1 + i → (s.plist.set s.p x)[t]? = s.plist[t]? := fun t htt => getElem?_set_ne' (by omega)
    refine ⟨by simp only; omega, by simpa using hlen, h.ge, h.lt, ?_, ?_, ?_, ?_, ?_, ?_, ?_⟩
    · intro t htt
      simp only
      rw [hold t (by omega)]
      exact h.out t (by omega)
    · simp only
      rw [hold p (by omega)]
      exact h.top
    · intro K hK hna
      simp only
      rcases Nat.lt_or_ge K i with hlt | hge
      · rw [hold _ (by omega), hold _ (by omega)]
        exact h.inactive K hlt hna
      · obtain rfl : K = i := by omega
        rw [hnew, hold _ (by omega), ex]
    · intro K hK hact'
      simp only
      rcases Nat.lt_or_ge K i with hlt | hge
      · rw [hold _ (by omega)]
        exact h.active K hlt hact'
      · obtain rfl : K = i := by omega
        exact absurd hact' hc
    · intro m hm hm'
      obtain ⟨K', g1, g2, g3⟩ := h.below m hm hm'
      exact ⟨K', by omega, g2, g3⟩
    · exact ⟨x, by simp only; rw [← Nat.add_assoc, Nat.add_right_comm]; exact hnew, hx⟩
    · intro K x' y hK
      simp only
      rcases Nat.lt_or_ge K i with hlt | hge
      · rw [hold _ (by omega), hold _ (by omega)]
        exact h.sorted K x' y hlt
      · obtain rfl : K = i := by omega
        rw [hold _ (by omega), hnew, ex]
        intro a1 a2
        cases a1; cases a2
        exact le_refl _

/-- The result for one column. -/
structure ColOk (act : Nat → Prop) (zc : Nat → Rat) (zlist : List Rat) (tol : Rat) (b e p n : Nat) (pl : List Int) : Prop where
  top : pl[p]? = some intMin
  bottom : pl[p + 1 + n]? = some intMax
  inactive : ∀ K, K < n → ¬ act K → pl[p + 1 + K]? = pl[p + K]?
  active : ∀ K, K < n → act K → ∃ k : Nat, pl[p + 1 + K]? = some (k : Int) ∧ b ≤ k ∧ k < e ∧ zc K ≤ zlist.getD k 0 + tol ∧
    ∀ m, b ≤ m → m < k → ∃ K', K' ≤ K ∧ act K' ∧ zlist.getD m 0 + tol < zc K'
  sorted : ∀ K x y, K < n → pl[p + K]? = some x → pl[p + 1 + K]? = some y → x ≤ y

theorem ColOk.congr {act : Nat → Prop} {zc : Nat → Rat} {zlist : List Rat} {tol : Rat} {b e p n : Nat} {pl pl' : List Int} (h : ColOk act zc zlist tol b e p n pl)
    (hpl : ∀ t, p ≤ t → t < p + 2 + n → pl'[t]? = pl[t]?) : ColOk act zc zlist tol b e p n pl' := by
  refine ⟨by rw [hpl _ (by omega) (by omega)]; exact h.top, by rw [hpl _ (by omega) (by omega)]; exact h.bottom, ?_, ?_, ?_⟩
  · intro K hK
    rw [hpl _ (by omega) (by omega), hpl _ (by omega) (by omega)]
    exact h.inactive K hK
  · intro K hK
    rw [hpl _ (by omega) (by omega)]
    exact h.active K hK
  · intro K x y hK
    rw [hpl _ (by omega) (by omega), hpl _ (by omega) (by omega)]
    exact h.sorted K x y hK

theorem assign_ok {act : Nat → Prop} {zc : Nat → Rat} {zcorn : List Rat} {actnum : List Int} {begZ begA : Nat}
    (hact : ∀ K, act K ↔ actnum.getD (begA + K / 2) 0 ≠ 0) (hzc : ∀ K, zc K = zcorn.getD (begZ + K) 0) {n : Nat} (ha : ∀ K, K < n → begA + K / 2 < actnum.length)
    (hz : ∀ K, K < n → begZ + K < zcorn.length) {zlist : List Rat} {tol : Rat} (ht : 0 ≤ tol) {b e p : Nat} (he : e ≤ zlist.length)
    (htop : ∀ K, K < n → act K → b < e ∧ zc K ≤ zlist.getD (e - 1) 0) {plist : List Int} (hp : p + 2 + n ≤ plist.length) :
    ∃ s, assignPointNumbers b e zlist n zcorn begZ actnum begA plist p tol = .ok (some s) ∧ s.plist.length = plist.length ∧
      (∀ t, t < p ∨ p + 2 + n ≤ t → s.plist[t]? = plist[t]?) ∧ ColOk act zc zlist tol b e p n s.plist := by
  unfold assignPointNumbers
  rw [wr_ok (by omega), bind_ok]
  obtain ⟨o, e1, s, rfl, h⟩ := loop_inv (n := n) (s := some (⟨b, p + 1, plist.set p intMin⟩ : Assign)) (f := assignStep begZ e zlist zcorn begA actnum tol)
    (P := fun i o => ∃ s, o = some s ∧ AInv act zc zlist tol b e p plist i s) ⟨_, rfl, by
      refine ⟨rfl, by simp, le_refl _, id, ?_, getElem?_set_eq' (by omega), by simp, by simp, fun m h h' => ?_, ⟨intMin, getElem?_set_eq' (by omega), ?_⟩, by simp⟩
      · intro t htt
        exact getElem?_set_ne' (by omega)
      · simp only at h'; omega
      · simp only [intMin]; omega⟩ (by
      rintro i o hi ⟨s, rfl, h⟩
      obtain ⟨s', e1, h'⟩ := assign_step hact hzc ha hz ht he htop hp hi h
      exact ⟨_, e1, s', rfl, h'⟩)
  have hlen := h.len
  have hpp := h.here
  rw [e1, bind_ok]
  unfold assignEnd
  simp only
  rw [wr_ok (by omega), bind_ok]
  refine ⟨_, rfl, by simpa using hlen, ?_, ?_⟩
  · intro t htt
    simp only
    rw [getElem?_set_ne' (by omega)]
    exact h.out t (by omega)
  · simp only
    have hold : ∀ t, t ≠ p + 1 + n → (s.plist.set s.p intMax)[t]? = s.plist[t]? := fun t htt => getElem?_set_ne' (by omega)
    refine ⟨by rw [hold _ (by omega)]; exact h.top, by rw [← hpp]; exact getElem?_set_eq' (by omega), ?_, ?_, ?_⟩
    · intro K hK
      rw [hold _ (by omega), hold _ (by omega)]
      exact h.inactive K hK
    · intro K hK hK'
      rw [hold _ (by omega)]
      obtain ⟨k, g1, g2, g3, _, g5, g6⟩ := h.active K hK hK'
      exact ⟨k, g1, g2, g3, g5, g6⟩
    · intro K x y hK
      rw [hold _ (by omega), hold _ (by omega)]
      exact h.sorted K x y hK

end Opm.UniquePoints
