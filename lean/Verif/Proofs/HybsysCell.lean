import Verif.Proofs.Hybsys
/-!
# Hybrid systems: contributions of a cell
-/

namespace Opm.Hybsys
open Opm Opm.MiscUtil Opm.SparseSys
open Opm.IfsTpfa (getD_set)

/-- The `n * n` numbers at the beginning of `S` are the matrix `g`. -/
def Mat (n : Nat) (S : List Rat) (g : Nat → Nat → Rat) : Prop := n * n ≤ S.length ∧ ∀ i j, i < n → j < n → S.getD (i + j * n) 0 = g i j

theorem mat_rd {n : Nat} {S : List Rat} {g : Nat → Nat → Rat} (h : Mat n S g) {i j : Nat} (hi : i < n) (hj : j < n) : rd S (i + j * n) = .ok (g i j) := by
  have := sq_idx hi hj
  rw [rdD (by have := h.1; omega), h.2 i j hi hj]

theorem mat_wr {n : Nat} {S : List Rat} {g g' : Nat → Nat → Rat} (h : Mat n S g) {i j : Nat} (hi : i < n) (hj : j < n) (x : Rat)
    (h1 : g' i j = x) (h2 : ∀ a b, a < n → b < n → ¬(a = i ∧ b = j) → g' a b = g a b) :
    ∃ S', wr S (i + j * n) x = .ok S' ∧ S'.length = S.length ∧ Mat n S' g' := by
  have hl := sq_idx hi hj
  have hl' : i + j * n < S.length := by have := h.1; omega
  refine ⟨_, wr_ok hl', by simp, by simpa using h.1, fun a b ha hb => ?_⟩
  rw [getD_set hl']
  split
  · next e =>
    obtain ⟨rfl, rfl⟩ : b = j ∧ a = i := idx_inj' (np := n) ha hi (by omega)
    exact h1.symm
  · next e =>
    rw [h2 a b ha hb (fun q => e (by rw [q.1, q.2]))]
    exact h.2 a b ha hb

theorem syrkUpper_ok {n : Nat} {al : Rat} {F : List Rat} {oF : Nat} {S : List Rat} {g : Nat → Nat → Rat} (hF : oF + n ≤ F.length) (h : Mat n S g) :
    ∃ S', syrkUpper n al F oF S = .ok S' ∧ S'.length = S.length ∧
      Mat n S' (fun i j => if i ≤ j then g i j + al * F.getD (oF + i) 0 * F.getD (oF + j) 0 else g i j) := by
  unfold syrkUpper
  obtain ⟨t, e, h1, h2⟩ := loop_inv (n := n) (s := S) (f := fun j S => loop (j + 1) (fun i S => do
    let a ← rd F (oF + i)
    let b ← rd F (oF + j)
    let x ← rd S (i + j * n)
    wr S (i + j * n) (al * a * b + x)) S)
    (fun m t => t.length = S.length ∧ Mat n t (fun i j => if i ≤ j ∧ j < m then g i j + al * F.getD (oF + i) 0 * F.getD (oF + j) 0 else g i j)) ⟨rfl, by simpa using h⟩ (by
    rintro j t hj ⟨h1, h2⟩
    obtain ⟨t', e, h3, h4⟩ := loop_inv (n := j + 1) (s := t) (f := fun i S => do
      let a ← rd F (oF + i)
      let b ← rd F (oF + j)
      let x ← rd S (i + j * n)
      wr S (i + j * n) (al * a * b + x))
      (fun m t => t.length = S.length ∧ Mat n t (fun i k => if i ≤ k ∧ (k < j ∨ k = j ∧ i < m) then g i k + al * F.getD (oF + i) 0 * F.getD (oF + k) 0 else g i k)) ⟨h1, by simpa using h2⟩ (by
      rintro i t hi ⟨h1, h2⟩
      have hin : i < n := by omega
      rw [rdD (by omega), bind_ok, rdD (by omega), bind_ok, mat_rd h2 hin hj, bind_ok]
      obtain ⟨t', e, h3, h4⟩ := mat_wr (g' := fun a k => if a ≤ k ∧ (k < j ∨ k = j ∧ a < i + 1) then g a k + al * F.getD (oF + a) 0 * F.getD (oF + k) 0 else g a k) h2 hin hj _
        rfl (fun a b ha hb hne => by
          have : (a ≤ b ∧ (b < j ∨ b = j ∧ a < i + 1)) ↔ (a ≤ b ∧ (b < j ∨ b = j ∧ a < i)) := by
            constructor
            · rintro ⟨p, q⟩
              refine ⟨p, ?_⟩
              omega
            · rintro ⟨p, q⟩
              refine ⟨p, ?_⟩
              omega
          simp only [this])
      refine ⟨t', ?_, by omega, h4⟩
      rw [← e]
      congr 1
      have c1 : i ≤ j ∧ (j < j ∨ j = j ∧ i < i + 1) := ⟨by omega, Or.inr ⟨rfl, by omega⟩⟩
      have c2 : ¬(i ≤ j ∧ (j < j ∨ j = j ∧ i < i)) := by omega
      beta_reduce
      rw [if_pos c1, if_neg c2]
      ring)
    refine ⟨t', e, h3, h4.1, fun a b ha hb => ?_⟩
    rw [h4.2 a b ha hb]
    have : (a ≤ b ∧ (b < j ∨ b = j ∧ a < j + 1)) ↔ (a ≤ b ∧ b < j + 1) := by omega
    simp only [this])
  refine ⟨t, e, h1, h2.1, fun a b ha hb => ?_⟩
  rw [h2.2 a b ha hb]
  simp only [hb, and_true]

theorem mirror_ok {n : Nat} {S : List Rat} {g : Nat → Nat → Rat} (h : Mat n S g) :
    ∃ S', mirror n S = .ok S' ∧ S'.length = S.length ∧ Mat n S' (fun i j => if i ≤ j then g i j else g j i) := by
  unfold mirror
  obtain ⟨t, e, h1, h2⟩ := loop_inv (n := n) (s := S) (f := fun j S => forRange (j + 1) n (fun i S => do
    let x ← rd S (j + i * n)
    wr S (i + j * n) x) S)
    (fun m t => t.length = S.length ∧ Mat n t (fun i j => if j < i ∧ j < m then g j i else g i j)) ⟨rfl, by simpa using h⟩ (by
    rintro j t hj ⟨h1, h2⟩
    obtain ⟨t', e, h3, h4⟩ := forRange_inv (a := j + 1) (b := n) (s := t) (f := fun i S => do
      let x ← rd S (j + i * n)
      wr S (i + j * n) x) (by omega)
      (fun m t => t.length = S.length ∧ Mat n t (fun i k => if k < i ∧ (k < j ∨ k = j ∧ i < m) then g k i else g i k)) ⟨h1, h2.1, fun a b ha hb => by
        rw [h2.2 a b ha hb]
        have : (b < a ∧ b < j) ↔ (b < a ∧ (b < j ∨ b = j ∧ a < j + 1)) := by omega
        simp only [this]⟩ (by
      rintro i t hi hin ⟨h1, h2⟩
      rw [mat_rd h2 hj hin, bind_ok]
      obtain ⟨t', e, h3, h4⟩ := mat_wr (g' := fun a k => if k < a ∧ (k < j ∨ k = j ∧ a < i + 1) then g k a else g a k) h2 hin hj _
        rfl (fun a b ha hb hne => by
          have : (b < a ∧ (b < j ∨ b = j ∧ a < i + 1)) ↔ (b < a ∧ (b < j ∨ b = j ∧ a < i)) := by
            constructor
            · rintro ⟨p, q⟩
              refine ⟨p, ?_⟩
              omega
            · rintro ⟨p, q⟩
              refine ⟨p, ?_⟩
              omega
          simp only [this])
      refine ⟨t', ?_, by omega, h4⟩
      rw [← e]
      congr 1
      rw [if_neg (by omega), if_pos ⟨by omega, Or.inr ⟨rfl, by omega⟩⟩])
    refine ⟨t', e, h3, h4.1, fun a b ha hb => ?_⟩
    rw [h4.2 a b ha hb]
    have : (b < a ∧ (b < j ∨ b = j ∧ a < n)) ↔ (b < a ∧ b < j + 1) := by omega
    simp only [this])
  refine ⟨t, e, h1, h2.1, fun a b ha hb => ?_⟩
  rw [h2.2 a b ha hb]
  simp only
  by_cases hab : a ≤ b
  · rw [if_neg (by omega), if_pos hab]
  · rw [if_pos ⟨by omega, hb⟩, if_neg hab]

theorem copy_mat {n : Nat} {Binv S : List Rat} {p2 : Nat} (hB : p2 + n * n ≤ Binv.length) (hS : n * n ≤ S.length) :
    ∃ S', copy (n * n) Binv p2 S 0 = .ok S' ∧ S'.length = S.length ∧ Mat n S' (fun i j => Binv.getD (p2 + (i + j * n)) 0) := by
  obtain ⟨S', e, u⟩ := copy_ok (n := n * n) (x := Binv) (y := S) (ox := p2) (oy := 0) hB (by omega)
  refine ⟨S', e, u.1, by rw [u.1]; exact hS, fun i j hi hj => ?_⟩
  have := u.2.1 (i + j * n) (sq_idx hi hj)
  rw [Nat.zero_add] at this
  exact this

theorem cellmatSymm_ok {n : Nat} {Binv F S : List Rat} {p1 p2 : Nat} {L : Rat} (hB : p2 + n * n ≤ Binv.length) (hF : p1 + n ≤ F.length) (hS : n * n ≤ S.length) (hL : L ≠ 0)
    (hsym : ∀ i j, i < n → j < n → Binv.getD (p2 + (i + j * n)) 0 = Binv.getD (p2 + (j + i * n)) 0) :
    ∃ S', cellmatSymm n Binv p2 L F p1 S = .ok S' ∧ S'.length = S.length ∧
      Mat n S' (fun i j => Binv.getD (p2 + (i + j * n)) 0 - F.getD (p1 + i) 0 * F.getD (p1 + j) 0 / L) := by
  unfold cellmatSymm
  obtain ⟨S1, e1, l1, m1⟩ := copy_mat hB hS
  obtain ⟨S2, e2, l2, m2⟩ := syrkUpper_ok (al := -1 / L) hF m1
  obtain ⟨S3, e3, l3, m3⟩ := mirror_ok m2
  refine ⟨S3, by rw [e1, bind_ok, fdiv_ok hL, bind_ok, e2, bind_ok, e3], by omega, m3.1, fun i j hi hj => ?_⟩
  rw [m3.2 i j hi hj]
  simp only
  by_cases hij : i ≤ j
  · rw [if_pos hij, if_pos hij]; ring
  · rw [if_neg hij, if_pos (by omega), hsym i j hi hj]; ring

theorem cellmatUnsymm_ok {n : Nat} {Binv F1 F2 S : List Rat} {p1 p2 : Nat} {L : Rat} (hB : p2 + n * n ≤ Binv.length) (hF1 : p1 + n ≤ F1.length) (hF2 : p1 + n ≤ F2.length)
    (hS : n * n ≤ S.length) (hL : L ≠ 0) :
    ∃ S', cellmatUnsymm n Binv p2 L F1 F2 p1 S = .ok S' ∧ S'.length = S.length ∧
      Mat n S' (fun i j => Binv.getD (p2 + (i + j * n)) 0 - F1.getD (p1 + i) 0 * F2.getD (p1 + j) 0 / L) := by
  unfold cellmatUnsymm
  obtain ⟨S1, e1, l1, m1⟩ := copy_mat hB hS
  rw [e1, bind_ok, fdiv_ok hL, bind_ok]
  obtain ⟨t, e, h1, h2⟩ := loop_inv (n := n) (s := S1) (f := fun j S => loop n (fun i S => do
    let a ← rd F1 (p1 + i)
    let b ← rd F2 (p1 + j)
    let x ← rd S (i + j * n)
    wr S (i + j * n) (-1 / L * a * b + x)) S)
    (fun m t => t.length = S.length ∧
      Mat n t (fun i j => if j < m then Binv.getD (p2 + (i + j * n)) 0 - F1.getD (p1 + i) 0 * F2.getD (p1 + j) 0 / L else Binv.getD (p2 + (i + j * n)) 0)) ⟨l1, by simpa using m1⟩ (by
    rintro j t hj ⟨h1, h2⟩
    obtain ⟨t', e, h3, h4⟩ := loop_inv (n := n) (s := t) (f := fun i S => do
      let a ← rd F1 (p1 + i)
      let b ← rd F2 (p1 + j)
      let x ← rd S (i + j * n)
      wr S (i + j * n) (-1 / L * a * b + x))
      (fun m t => t.length = S.length ∧
        Mat n t (fun i k => if k < j ∨ k = j ∧ i < m then Binv.getD (p2 + (i + k * n)) 0 - F1.getD (p1 + i) 0 * F2.getD (p1 + k) 0 / L else Binv.getD (p2 + (i + k * n)) 0)) ⟨h1, by simpa using h2⟩ (by
      rintro i t hi ⟨h1, h2⟩
      rw [rdD (by omega), bind_ok, rdD (by omega), bind_ok, mat_rd h2 hi hj, bind_ok]
      obtain ⟨t', e, h3, h4⟩ := mat_wr
        (g' := fun a k => if k < j ∨ k = j ∧ a < i + 1 then Binv.getD (p2 + (a + k * n)) 0 - F1.getD (p1 + a) 0 * F2.getD (p1 + k) 0 / L else Binv.getD (p2 + (a + k * n)) 0) h2 hi hj _
        rfl (fun a b ha hb hne => by
          have : (b < j ∨ b = j ∧ a < i + 1) ↔ (b < j ∨ b = j ∧ a < i) := by omega
          simp only [this])
      refine ⟨t', ?_, by omega, h4⟩
      rw [← e]
      congr 1
      have c1 : j < j ∨ j = j ∧ i < i + 1 := Or.inr ⟨rfl, by omega⟩
      have c2 : ¬(j < j ∨ j = j ∧ i < i) := by omega
      beta_reduce
      rw [if_pos c1, if_neg c2]
      ring)
    refine ⟨t', e, h3, h4.1, fun a b ha hb => ?_⟩
    rw [h4.2 a b ha hb]
    have : (b < j ∨ b = j ∧ a < n) ↔ b < j + 1 := by omega
    simp only [this])
  refine ⟨t, e, h1, h2.1, fun a b ha hb => ?_⟩
  rw [h2.2 a b ha hb]
  simp only [hb, if_true]

theorem cellrhs_ok {n : Nat} {gpress Binv F1 F2 R : List Rat} {p1 p2 : Nat} {src L : Rat} (hB : p2 + n * n ≤ Binv.length) (hg : p1 + n ≤ gpress.length)
    (hF1 : p1 + n ≤ F1.length) (hF2 : p1 + n ≤ F2.length) (hR : n ≤ R.length) (hL : L ≠ 0) :
    ∃ R', cellrhs n gpress p1 src Binv p2 L F1 F2 R = .ok (R', src - ∑ i ∈ Finset.range n, F2.getD (p1 + i) 0 * gpress.getD (p1 + i) 0) ∧ R'.length = R.length ∧
      ∀ i, i < n → R'.getD i 0 = ∑ j ∈ Finset.range n, Binv.getD (p2 + (i + j * n)) 0 * gpress.getD (p1 + j) 0 +
        F1.getD (p1 + i) 0 * (src - ∑ j ∈ Finset.range n, F2.getD (p1 + j) 0 * gpress.getD (p1 + j) 0) / L := by
  unfold cellrhs
  obtain ⟨R1, e1, u1⟩ := gemv_ok (n := n) (alpha := 1) (beta := 0) (A := Binv) (x := gpress) (y := R) (oA := p2) (ox := p1) (oy := 0) hB hg (by omega)
  obtain ⟨R2, e2, u2⟩ := axpy_ok (n := n) (alpha := (src - ∑ i ∈ Finset.range n, F2.getD (p1 + i) 0 * gpress.getD (p1 + i) 0) / L) (x := F1) (y := R1) (ox := p1) (oy := 0) hF1
    (by rw [u1.1]; omega)
  refine ⟨R2, by rw [e1, bind_ok, dot_ok hF2 hg, bind_ok, fdiv_ok hL, bind_ok, e2, bind_ok], by rw [u2.1, u1.1], fun i hi => ?_⟩
  have h2 := u2.2.1 i hi
  have h1 := u1.2.1 i hi
  simp only [Nat.zero_add] at h1 h2
  rw [h2, h1]
  ring

end Opm.Hybsys
