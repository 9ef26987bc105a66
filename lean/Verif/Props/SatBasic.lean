import Verif.Props.EndPoints
import Verif.Proofs.BlackoilMatrix
import Verif.Proofs.UniqueList
/-!
# Saturation functions given by a formula
-/

namespace Opm.SatFunc
open Opm Opm.Blackoil Opm.Rock

/-- What is accepted: one or two phases; relative permeabilities that are constant (for one phase only), linear or quadratic. -/
theorem basic_init (num : Int) (name : String) (b : BasicSat) : BasicSat.init num name = .ok b ↔
    (num = 1 ∨ num = 2) ∧ b.num = num.toNat ∧ ((name = "Constant" ∧ num = 1 ∧ b.func = .constant) ∨ (name = "Linear" ∧ b.func = .linear) ∨ (name = "Quadratic" ∧ b.func = .quadratic)) := by
  obtain ⟨n, f⟩ := b
  unfold BasicSat.init
  constructor
  · intro h
    split at h
    · cases h
    next h0 =>
    have hn : num = 1 ∨ num = 2 := by omega
    split at h
    · next e =>
      split at h
      · cases h
      · next e' => rw [not_not] at e'; cases h; exact ⟨hn, rfl, Or.inl ⟨e, e', rfl⟩⟩
    split at h
    · next e => cases h; exact ⟨hn, rfl, Or.inr (Or.inl ⟨e, rfl⟩)⟩
    split at h
    · next e => cases h; exact ⟨hn, rfl, Or.inr (Or.inr ⟨e, rfl⟩)⟩
    · cases h
  · rintro ⟨hn, e, h⟩
    dsimp only at e h
    subst e
    rw [if_neg (by omega)]
    rcases h with ⟨rfl, rfl, rfl⟩ | ⟨rfl, rfl⟩ | ⟨rfl, rfl⟩ <;> rfl

/-- The functions and their slopes. -/
theorem basic_functions (s : Rat) : KrFun.constant.kr s = 1 ∧ KrFun.linear.kr s = s ∧ KrFun.quadratic.kr s = s ^ 2 ∧ ∀ f : KrFun, SlopeAt (fun x => .ok (f.kr x)) s (f.dkr s) := by
  refine ⟨rfl, rfl, (sq s).symm, fun f => ⟨f.kr s, 1, 1, rfl, one_pos, fun h _ => ⟨_, rfl, ?_⟩⟩⟩
  have := sq_nonneg h
  cases f
  · rw [show KrFun.constant.kr (s + h) - KrFun.constant.kr s - KrFun.constant.dkr s * h = 0 by simp [KrFun.kr, KrFun.dkr]]
    simpa using this
  · rw [show KrFun.linear.kr (s + h) - KrFun.linear.kr s - KrFun.linear.dkr s * h = 0 by simp [KrFun.kr, KrFun.dkr]]
    simpa using this
  · rw [show KrFun.quadratic.kr (s + h) - KrFun.quadratic.kr s - KrFun.quadratic.dkr s * h = h ^ 2 by simp only [KrFun.kr, KrFun.dkr]; ring]
    rw [abs_of_nonneg this, one_mul]

/-- Relative permeabilities of a batch of points. -/
theorem basic_relperm {b : BasicSat} {n : Nat} {s kr : List Rat} (hs : s.length = n * b.num) (hk : kr.length = n * b.num) : b.relperm n s kr = .ok (s.map b.func.kr) := by
  unfold BasicSat.relperm
  obtain ⟨t, e, h1, h2, _⟩ := loop_writes (n := n * b.num) (f := fun i kr => do
    let x ← rd s i
    wr kr i (b.func.kr x)) (s := kr) (fun i => i) (fun i => b.func.kr (s.getD i 0)) (fun i hi => by omega) (fun i j _ _ e => e) (fun i t hi _ _ => by
      rw [rd_ok (by omega), bind_ok, List.getD_eq_getElem?_getD, List.getElem?_eq_getElem (by omega)]
      rfl)
  rw [e]
  congr 1
  refine List.ext_getElem (by simp [h1, hs, hk]) fun i g1 g2 => ?_
  have hi : i < n * b.num := by omega
  have := h2 i hi
  rw [List.getD_eq_getElem?_getD, List.getElem?_eq_getElem g1, List.getD_eq_getElem?_getD, List.getElem?_eq_getElem (by omega)] at this
  simpa using this

theorem sq_index {i np ph q : Nat} (h1 : ph < np) (h2 : q < np) : i * np * np + (ph * np + q) < (i + 1) * np * np := by
  have := Nat.mul_le_mul_right np (show ph + 1 ≤ np from h1)
  have e : (i + 1) * np * np = i * np * np + np * np := by ring
  rw [e]
  have e2 : (ph + 1) * np = ph * np + np := by ring
  omega

theorem basic_point {b : BasicSat} {s kr d : List Rat} {i : Nat} (hs : (i + 1) * b.num ≤ s.length) (hk : (i + 1) * b.num ≤ kr.length) (hd : (i + 1) * b.num * b.num ≤ d.length) (hz : ∀ j, j < b.num * b.num → d.getD (i * b.num * b.num + j) 0 = 0) :
    ∃ r, loop b.num (fun phase r => b.one s i phase r) (kr, d) = .ok r ∧ r.1.length = kr.length ∧ r.2.length = d.length ∧ (∀ ph, ph < b.num → r.1.getD (i * b.num + ph) 0 = b.func.kr (s.getD (i * b.num + ph) 0)) ∧
      (∀ k, k < i * b.num ∨ (i + 1) * b.num ≤ k → r.1.getD k 0 = kr.getD k 0) ∧
      (∀ ph q, ph < b.num → q < b.num → r.2.getD (i * b.num * b.num + (q * b.num + ph)) 0 = if ph = q then b.func.dkr (s.getD (i * b.num + ph) 0) else 0) ∧ ∀ k, k < i * b.num * b.num ∨ (i + 1) * b.num * b.num ≤ k → r.2.getD k 0 = d.getD k 0 := by
  have es : (i + 1) * b.num = i * b.num + b.num := by ring
  obtain ⟨r, e, h1, h2, h3, h4, h5, h6⟩ := loop_inv (n := b.num) (f := fun phase r => b.one s i phase r) (s := (kr, d))
    (P := fun m (r : List Rat × List Rat) => r.1.length = kr.length ∧ r.2.length = d.length ∧ (∀ ph, ph < m → r.1.getD (i * b.num + ph) 0 = b.func.kr (s.getD (i * b.num + ph) 0)) ∧
      (∀ k, k < i * b.num ∨ (i + 1) * b.num ≤ k → r.1.getD k 0 = kr.getD k 0) ∧
      (∀ ph q, ph < b.num → q < b.num → r.2.getD (i * b.num * b.num + (q * b.num + ph)) 0 = if ph = q ∧ ph < m then b.func.dkr (s.getD (i * b.num + ph) 0) else 0) ∧ ∀ k, k < i * b.num * b.num ∨ (i + 1) * b.num * b.num ≤ k → r.2.getD k 0 = d.getD k 0)
    ⟨rfl, rfl, by simp, by simp, fun ph q g1 g2 => by
      rw [if_neg (by omega)]
      refine hz _ ?_
      have := sq_index (i := 0) g2 g1
      simpa using this, by simp⟩ (by
    rintro m ⟨x, y⟩ hm ⟨h1, h2, h3, h4, h5, h6⟩
    dsimp only at h1 h2 h3 h4 h5 h6 ⊢
    have hi := sq_index (i := i) hm hm
    have gs : s[i * b.num + m]? = some (s.getD (i * b.num + m) 0) := by rw [List.getD_eq_getElem?_getD, List.getElem?_eq_getElem (by omega)]; rfl
    unfold BasicSat.one
    rw [rd_of_getElem? gs, bind_ok, wr_ok (by rw [h1]; omega), bind_ok, show i * b.num * b.num + m * b.num + m = i * b.num * b.num + (m * b.num + m) by omega, wr_ok (by rw [h2]; omega), bind_ok]
    refine ⟨_, rfl, by simpa using h1, by simpa using h2, fun ph hp => ?_, fun k hk' => ?_, fun ph q g1 g2 => ?_, fun k hk' => ?_⟩
    · dsimp only
      rw [UniquePoints.getD_set' (by omega)]
      split
      · next e => rw [show ph = m by omega]
      · exact h3 ph (by omega)
    · dsimp only
      rw [UniquePoints.getD_set' (by omega), if_neg (by omega)]
      exact h4 k hk'
    · dsimp only
      rw [UniquePoints.getD_set' (by omega)]
      by_cases e : q = m ∧ ph = m
      · obtain ⟨rfl, rfl⟩ := e
        rw [if_pos rfl, if_pos ⟨rfl, by omega⟩]
      · rw [if_neg ?_, h5 ph q g1 g2]
        · by_cases e1 : ph = q
          · subst e1
            have : ph ≠ m := fun e2 => e ⟨e2, e2⟩
            by_cases e3 : ph < m
            · rw [if_pos ⟨rfl, e3⟩, if_pos ⟨rfl, by omega⟩]
            · rw [if_neg (by omega), if_neg (by omega)]
          · rw [if_neg (by tauto), if_neg (by tauto)]
        · intro e1
          have e1 : q * b.num + ph = m * b.num + m := by omega
          have e2 : q = m := by
            have := congrArg (· / b.num) e1
            simpa [Nat.add_div_of_dvd_right (Dvd.intro_left _ rfl), Nat.div_eq_of_lt g1, Nat.div_eq_of_lt hm, Nat.mul_div_cancel _ (by omega : 0 < b.num)] using this
          subst e2
          exact e ⟨rfl, by omega⟩
    · dsimp only
      rw [UniquePoints.getD_set' (by omega), if_neg (by omega)]
      exact h6 k hk')
  refine ⟨r, e, h1, h2, h3, h4, fun ph q g1 g2 => ?_, h6⟩
  rw [h5 ph q g1 g2]
  by_cases e1 : ph = q
  · rw [if_pos ⟨e1, g1⟩, if_pos e1]
  · rw [if_neg (by tauto), if_neg e1]

/-- Relative permeabilities and their derivatives of a batch of points: the derivative of each phase by its own saturation; all other elements of the matrix of a point are zero. -/
theorem basic_relperm_deriv {b : BasicSat} {n : Nat} {s kr d : List Rat} (hs : s.length = n * b.num) (hk : kr.length = n * b.num) (hd : d.length = n * b.num * b.num) :
    ∃ kr' d', b.relpermDeriv n s kr d = .ok (kr', d') ∧ kr' = s.map b.func.kr ∧ d'.length = n * b.num * b.num ∧
      ∀ i ph q x, i < n → ph < b.num → q < b.num → s[i * b.num + ph]? = some x → d'[i * b.num * b.num + (q * b.num + ph)]? = some (if ph = q then b.func.dkr x else 0) := by
  have mono : ∀ i j, i ≤ j → i * b.num ≤ j * b.num := fun i j h => Nat.mul_le_mul_right _ h
  have mono2 : ∀ i j, i ≤ j → i * b.num * b.num ≤ j * b.num * b.num := fun i j h => Nat.mul_le_mul_right _ (mono i j h)
  obtain ⟨⟨x, y⟩, e, h1, h2, h3, h4⟩ := loop_inv (n := n) (f := fun i (r : List Rat × List Rat) => do
      let d ← zeros (i * b.num * b.num) (b.num * b.num) r.2
      loop b.num (fun phase r => b.one s i phase r) (r.1, d)) (s := (kr, d))
    (P := fun m (r : List Rat × List Rat) => r.1.length = kr.length ∧ r.2.length = d.length ∧ (∀ i ph, i < m → ph < b.num → r.1.getD (i * b.num + ph) 0 = b.func.kr (s.getD (i * b.num + ph) 0)) ∧
      ∀ i ph q, i < m → ph < b.num → q < b.num → r.2.getD (i * b.num * b.num + (q * b.num + ph)) 0 = if ph = q then b.func.dkr (s.getD (i * b.num + ph) 0) else 0)
    ⟨rfl, rfl, by simp, by simp⟩ (by
    rintro m ⟨x, y⟩ hm ⟨h1, h2, h3, h4⟩
    dsimp only at h1 h2 h3 h4 ⊢
    have q1 := mono (m + 1) n hm
    have q2 := mono2 (m + 1) n hm
    have es : (m + 1) * b.num * b.num = m * b.num * b.num + b.num * b.num := by ring
    obtain ⟨t, ht, t1, t2, t3⟩ := zeros_ok (base := m * b.num * b.num) (k := b.num * b.num) (a := y) (by omega)
    obtain ⟨r, hr, r1, r2, r3, r4, r5, r6⟩ := basic_point (b := b) (s := s) (kr := x) (d := t) (i := m) (by omega) (by omega) (by omega) t2
    refine ⟨r, by rw [ht, bind_ok, hr], by omega, by omega, fun i ph hi hp => ?_, fun i ph q hi hp hq => ?_⟩
    · by_cases c : i = m
      · subst c; exact r3 ph hp
      · have := mono (i + 1) m (by omega)
        have es : (i + 1) * b.num = i * b.num + b.num := by ring
        rw [r4 _ (Or.inl (by omega))]
        exact h3 i ph (by omega) hp
    · by_cases c : i = m
      · subst c; exact r5 ph q hp hq
      · have := mono2 (i + 1) m (by omega)
        have w := sq_index (i := i) hq hp
        rw [r6 _ (Or.inl (by omega)), t3 _ (fun j hj => by omega)]
        exact h4 i ph q (by omega) hp hq)
  dsimp only at h1 h2 h3 h4
  refine ⟨x, y, e, ?_, by omega, fun i ph q v hi hp hq hv => ?_⟩
  · refine List.ext_getElem (by simp [h1, hs, hk]) fun k g1 g2 => ?_
    have hk' : k < n * b.num := by omega
    have hb : 0 < b.num := by by_contra c; rw [show b.num = 0 by omega] at hk'; omega
    have := h3 (k / b.num) (k % b.num) ((Nat.div_lt_iff_lt_mul hb).2 hk') (Nat.mod_lt _ hb)
    rw [Nat.div_add_mod' k b.num, List.getD_eq_getElem?_getD, List.getElem?_eq_getElem g1, List.getD_eq_getElem?_getD, List.getElem?_eq_getElem (by omega)] at this
    simpa using this
  · have := h4 i ph q hi hp hq
    have q2 := mono2 (i + 1) n hi
    have w := sq_index (i := i) hq hp
    have hl : i * b.num * b.num + (q * b.num + ph) < y.length := by omega
    rw [List.getD_eq_getElem?_getD, List.getElem?_eq_getElem hl, List.getD_eq_getElem?_getD, hv] at this
    rw [List.getElem?_eq_getElem hl]
    exact congrArg some this

/-- There is no capillary pressure. -/
theorem basic_cap_press {b : BasicSat} {n : Nat} {pc d : List Rat} (h1 : pc.length = b.num * n) (h2 : d.length = b.num * b.num * n) :
    b.capPress n pc none = .ok (List.replicate (b.num * n) 0, none) ∧ b.capPress n pc (some d) = .ok (List.replicate (b.num * n) 0, some (List.replicate (b.num * b.num * n) 0)) := by
  have key : ∀ (k : Nat) (l : List Rat), l.length = k → zeros 0 k l = .ok (List.replicate k 0) := fun k l hl => by
    obtain ⟨t, ht, t1, t2, _⟩ := zeros_ok (base := 0) (k := k) (a := l) (by omega)
    rw [ht]
    congr 1
    refine List.ext_getElem (by simp; omega) fun i g1 g2 => ?_
    have := t2 i (by omega)
    rw [Nat.zero_add, List.getD_eq_getElem?_getD, List.getElem?_eq_getElem g1] at this
    simpa using this
  unfold BasicSat.capPress
  constructor
  · rw [key _ _ h1, bind_ok]
  · rw [key _ _ h1, bind_ok]
    dsimp only
    rw [key _ _ h2, bind_ok]

/-- Saturations range from zero to one. -/
theorem basic_sat_range {b : BasicSat} {n : Nat} {lo hi : List Rat} (h1 : lo.length = b.num * n) (h2 : hi.length = b.num * n) : b.satRange n lo hi = .ok (List.replicate (b.num * n) 0, List.replicate (b.num * n) 1) := by
  unfold BasicSat.satRange
  obtain ⟨t, ht, t1, t2, _⟩ := zeros_ok (base := 0) (k := b.num * n) (a := lo) (by omega)
  obtain ⟨r, hr, r1, r2, _⟩ := loop_writes (n := b.num * n) (f := fun j l => wr l j 1) (s := hi) (fun j => j) (fun _ => 1) (fun i hi => by omega) (fun i j _ _ e => e) (fun i t hi _ _ => rfl)
  rw [ht, bind_ok, hr, bind_ok]
  congr 2
  · refine List.ext_getElem (by simp; omega) fun i g1 g2 => ?_
    have := t2 i (by omega)
    rw [Nat.zero_add, List.getD_eq_getElem?_getD, List.getElem?_eq_getElem g1] at this
    simpa using this
  · refine List.ext_getElem (by simp; omega) fun i g1 g2 => ?_
    have := r2 i (by omega)
    rw [List.getD_eq_getElem?_getD, List.getElem?_eq_getElem g1] at this
    simpa using this

example : BasicSat.init 2 "Quadratic" = .ok ⟨2, .quadratic⟩ ∧ BasicSat.init 2 "Constant" = .error .thrown ∧ BasicSat.init 3 "Linear" = .error .thrown ∧
    (BasicSat.mk 2 .quadratic).relpermDeriv 1 [1 / 3, 2 / 3] [0, 0] [7, 7, 7, 7] = .ok ([1 / 9, 4 / 9], [2 / 3, 0, 0, 4 / 3]) := by decide +kernel

end Opm.SatFunc
