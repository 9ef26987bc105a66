import Verif.Proofs.MiscUtil
/-!
# Lemmas about mobilities
-/

namespace Opm.MiscUtil
open Opm Opm.IfsTpfa

theorem idx_lt' {np c p n : Nat} (hc : c < n) (hp : p < np) : c * np + p < n * np := by
  rw [Nat.mul_comm c, Nat.mul_comm n]; exact idx_lt hc hp

theorem idx_inj' {np c p c' p' : Nat} (hp : p < np) (hp' : p' < np) (h : c * np + p = c' * np + p') : c = c' ∧ p = p' := by
  rw [Nat.mul_comm c, Nat.mul_comm c'] at h; exact idx_inj hp hp' h

theorem phaseMobilities_ok {P : Props} (hP : P.Ok) {cells : List Int} {s : List Rat} (hs : s.length = cells.length * P.np) :
    ∃ pm, computePhaseMobilities P cells s = .ok pm ∧ pm.length = cells.length * P.np ∧
      ∀ i p, i < cells.length → p < P.np → pm.getD (i * P.np + p) 0 = mobility P cells s i p := by
  have hkr := hP.kr s cells hs
  obtain ⟨r, e, h1, h2, h3, _⟩ := loop_inv (n := cells.length) (s := ((0 : Nat), P.relperm s cells)) (f := fun _ (r : Nat × List Rat) => loop P.np (fun p (r : Nat × List Rat) => do
      let x ← rd r.2 r.1
      let mu ← rd P.visc p
      let y ← fdiv x mu
      let l ← wr r.2 r.1 y
      .ok (r.1 + 1, l)) r)
    (P := fun c (r : Nat × List Rat) => r.1 = c * P.np ∧ r.2.length = cells.length * P.np ∧
      (∀ i p, i < c → p < P.np → r.2.getD (i * P.np + p) 0 = mobility P cells s i p) ∧ ∀ j, c * P.np ≤ j → r.2.getD j 0 = (P.relperm s cells).getD j 0)
    ⟨by simp, hkr, by simp, by simp⟩ (by
      rintro c r hc ⟨h1, h2, h3, h4⟩
      obtain ⟨t, e, g1, g2, g3, g4, g5⟩ := loop_inv (n := P.np) (s := r) (f := fun p (r : Nat × List Rat) => do
          let x ← rd r.2 r.1
          let mu ← rd P.visc p
          let y ← fdiv x mu
          let l ← wr r.2 r.1 y
          .ok (r.1 + 1, l))
        (P := fun k (t : Nat × List Rat) => t.1 = c * P.np + k ∧ t.2.length = cells.length * P.np ∧
          (∀ i p, i < c → p < P.np → t.2.getD (i * P.np + p) 0 = mobility P cells s i p) ∧
          (∀ p, p < k → t.2.getD (c * P.np + p) 0 = mobility P cells s c p) ∧ ∀ j, c * P.np + k ≤ j → t.2.getD j 0 = (P.relperm s cells).getD j 0)
        ⟨by simpa using h1, h2, h3, by simp, by simpa using h4⟩ (by
          rintro k ⟨t1, t2⟩ hk ⟨rfl, g2, g3, g4, g5⟩
          simp only at g2 g3 g4 g5 ⊢
          have hlt := idx_lt' hc hk
          have hmu := hP.pos k hk
          rw [rdD (by omega), bind_ok, rdD (by rw [hP.visc]; exact hk), bind_ok, fdiv_ok (ne_of_gt hmu), bind_ok, wr_ok (by omega), bind_ok]
          refine ⟨_, rfl, by simp only; omega, by simpa using g2, ?_, ?_, ?_⟩
          · intro i p hi hp
            rw [getD_set (by omega), if_neg (fun h => by have := (idx_inj' hp hk h).1; omega)]
            exact g3 i p hi hp
          · intro p hp
            rw [getD_set (by omega)]
            by_cases hpk : p = k
            · subst hpk
              rw [if_pos rfl, g5 _ (le_refl _)]
              rfl
            · rw [if_neg (by omega)]; exact g4 p (by omega)
          · intro j hj
            rw [getD_set (by omega), if_neg (by omega)]
            exact g5 j (by omega))
      refine ⟨t, e, by rw [g1, Nat.succ_mul], g2, ?_, ?_⟩
      · intro i p hi hp
        rcases Nat.lt_or_ge i c with h | h
        · exact g3 i p h hp
        · obtain rfl : i = c := by omega
          exact g4 p hp
      · intro j hj
        rw [Nat.succ_mul] at hj
        exact g5 j hj)
  refine ⟨r.2, ?_, h2, h3⟩
  unfold computePhaseMobilities
  rw [check_ok (by simpa using hs), bind_ok, e, bind_ok]

theorem mobilities_ok {P : Props} (hP : P.Ok) {kr : List Rat} (hk : kr.length = P.np) :
    ∃ m, mobilities P P.np kr = .ok m ∧ m.1.length = P.np ∧ (∀ p, p < P.np → m.1.getD p 0 = kr.getD p 0 / P.visc.getD p 0) ∧
      m.2 = ∑ p ∈ Finset.range P.np, kr.getD p 0 / P.visc.getD p 0 := by
  obtain ⟨m, e, h1, h2, h3, _⟩ := loop_inv (n := P.np) (s := (kr, (0 : Rat))) (f := fun p (r : List Rat × Rat) => do
      let k ← rd r.1 p
      let mu ← rd P.visc p
      let m ← fdiv k mu
      let mob ← wr r.1 p m
      .ok (mob, r.2 + m))
    (P := fun k (m : List Rat × Rat) => m.1.length = P.np ∧ (∀ p, p < k → m.1.getD p 0 = kr.getD p 0 / P.visc.getD p 0) ∧
      m.2 = ∑ p ∈ Finset.range k, kr.getD p 0 / P.visc.getD p 0 ∧ ∀ p, k ≤ p → m.1.getD p 0 = kr.getD p 0) ⟨hk, by simp, by simp, by simp⟩ (by
      rintro k ⟨m1, m2⟩ hk ⟨h1, h2, h3, h4⟩
      simp only at h1 h2 h3 h4 ⊢
      rw [rdD (by omega), bind_ok, rdD (by rw [hP.visc]; exact hk), bind_ok, fdiv_ok (ne_of_gt (hP.pos k hk)), bind_ok, wr_ok (by omega), bind_ok]
      refine ⟨_, rfl, by simpa using h1, ?_, ?_, ?_⟩
      · intro p hp
        rw [getD_set (by omega)]
        by_cases hpk : p = k
        · subst hpk; rw [if_pos rfl, h4 _ (le_refl _)]
        · rw [if_neg hpk]; exact h2 p (by omega)
      · simp only
        rw [h3, h4 _ (le_refl _), Finset.sum_range_succ]
      · intro p hp
        rw [getD_set (by omega), if_neg (by omega)]
        exact h4 p (by omega))
  exact ⟨m, e, h1, h2, h3⟩

theorem length_cellSat {np nc c : Nat} {s : List Rat} (hs : s.length = np * nc) (hc : c < nc) : (cellSat np s c).length = np := by
  unfold cellSat
  have := Nat.mul_le_mul_left np (Nat.succ_le_of_lt hc)
  rw [Nat.mul_succ] at this
  simp
  omega

end Opm.MiscUtil
