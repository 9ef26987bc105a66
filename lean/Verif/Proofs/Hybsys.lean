import Verif.Model.Hybsys
import Verif.Spec.Hybsys
import Verif.Proofs.Blocks
import Verif.Proofs.MiscUtil
import Verif.Proofs.Mobility
import Mathlib.Algebra.BigOperators.Ring.Finset
import Mathlib.Algebra.BigOperators.Field
import Mathlib.Tactic.Ring
import Mathlib.Tactic.Linarith
import Mathlib.Tactic.FieldSimp
/-!
# Hybrid systems: lemmas
-/

namespace Opm.Hybsys
open Opm Opm.MiscUtil Opm.SparseSys
open Opm.IfsTpfa (getD_set)

/-- `b` is `a` with the `n` values from `o` on replaced by those of `v`. -/
def Upd (a : List Rat) (o n : Nat) (v : Nat → Rat) (b : List Rat) : Prop :=
  b.length = a.length ∧ (∀ i, i < n → b.getD (o + i) 0 = v i) ∧ ∀ k, (∀ i, i < n → o + i ≠ k) → b.getD k 0 = a.getD k 0

theorem loop_upd {n : Nat} {f : Nat → List Rat → M (List Rat)} {a : List Rat} (o : Nat) (v : Nat → Rat) (h : o + n ≤ a.length)
    (hf : ∀ i t, i < n → t.length = a.length → t.getD (o + i) 0 = a.getD (o + i) 0 → f i t = wr t (o + i) (v i)) :
    ∃ b, loop n f a = .ok b ∧ Upd a o n v b :=
  loop_writes (fun i => o + i) v (fun i hi => by omega) (fun i j _ _ e => by omega) hf

theorem loop_acc {n : Nat} {f : Nat → Rat → M Rat} {s : Rat} (v : Nat → Rat) (hf : ∀ i t, i < n → f i t = .ok (t + v i)) :
    loop n f s = .ok (s + ∑ i ∈ Finset.range n, v i) := by
  induction n with
  | zero => simp
  | succ n ih =>
    rw [loop_succ, ih (fun i t hi => hf i t (by omega)), bind_ok, hf n _ (by omega), Finset.sum_range_succ, add_assoc]

theorem dot_ok {n : Nat} {x y : List Rat} {ox oy : Nat} (hx : ox + n ≤ x.length) (hy : oy + n ≤ y.length) :
    dot n x ox y oy = .ok (∑ i ∈ Finset.range n, x.getD (ox + i) 0 * y.getD (oy + i) 0) := by
  unfold dot
  rw [loop_acc (fun i => x.getD (ox + i) 0 * y.getD (oy + i) 0) (fun i t hi => by
    rw [rdD (by omega), bind_ok, rdD (by omega), bind_ok]), zero_add]

theorem sq_idx {n i j : Nat} (hi : i < n) (hj : j < n) : i + j * n < n * n := by
  have := idx_lt' (np := n) hj hi
  omega

theorem gemv_ok {n : Nat} {alpha beta : Rat} {A x y : List Rat} {oA ox oy : Nat} (hA : oA + n * n ≤ A.length) (hx : ox + n ≤ x.length) (hy : oy + n ≤ y.length) :
    ∃ b, gemv n alpha A oA x ox beta y oy = .ok b ∧
      Upd y oy n (fun i => alpha * (∑ j ∈ Finset.range n, A.getD (oA + (i + j * n)) 0 * x.getD (ox + j) 0) + beta * y.getD (oy + i) 0) b := by
  unfold gemv
  refine loop_upd oy _ hy (fun i t hi ht hg => ?_)
  rw [loop_acc (fun j => A.getD (oA + (i + j * n)) 0 * x.getD (ox + j) 0) (fun j t hj => by
    have := sq_idx hi hj
    rw [rdD (by omega), bind_ok, rdD (by omega), bind_ok]), bind_ok, zero_add]
  by_cases hb : beta = 0
  · rw [if_pos hb, hb, zero_mul, add_zero]
  · rw [if_neg hb, rdD (by omega), bind_ok, hg]

theorem axpy_ok {n : Nat} {alpha : Rat} {x y : List Rat} {ox oy : Nat} (hx : ox + n ≤ x.length) (hy : oy + n ≤ y.length) :
    ∃ b, axpy n alpha x ox y oy = .ok b ∧ Upd y oy n (fun i => alpha * x.getD (ox + i) 0 + y.getD (oy + i) 0) b := by
  unfold axpy
  refine loop_upd oy _ hy (fun i t hi ht hg => ?_)
  rw [rdD (by omega), bind_ok, rdD (by omega), bind_ok, hg]

theorem copy_ok {n : Nat} {x y : List Rat} {ox oy : Nat} (hx : ox + n ≤ x.length) (hy : oy + n ≤ y.length) :
    ∃ b, copy n x ox y oy = .ok b ∧ Upd y oy n (fun i => x.getD (ox + i) 0) b := by
  unfold copy
  refine loop_upd oy _ hy (fun i t hi ht _ => ?_)
  rw [rdD (by omega), bind_ok]

theorem off2_succ (pconn : List Nat) (c : Nat) : off2 pconn (c + 1) = off2 pconn c + deg pconn c * deg pconn c := by
  unfold off2
  rw [Finset.sum_range_succ]

theorem off2_mono {pconn : List Nat} {c d : Nat} (h : c ≤ d) : off2 pconn c ≤ off2 pconn d := by
  induction h with
  | refl => exact le_refl _
  | step _ ih => rw [off2_succ]; omega

theorem off2_le {pconn : List Nat} {c nc : Nat} (h : c < nc) : off2 pconn c + deg pconn c * deg pconn c ≤ off2 pconn nc := by
  rw [← off2_succ]
  exact off2_mono h

theorem pos_add {nc : Nat} {pconn : List Nat} (hp : RowPos nc pconn) {c : Nat} (hc : c < nc) : pconn.getD c 0 + deg pconn c = pconn.getD (c + 1) 0 := by
  have := hp.le hc
  unfold deg
  omega

theorem pos_le {nc : Nat} {pconn : List Nat} (hp : RowPos nc pconn) {c : Nat} (hc : c < nc) : pconn.getD c 0 + deg pconn c ≤ pconn.getD nc 0 := by
  rw [pos_add hp hc]
  exact hp.mono' hc (le_refl _)

theorem cells_inv {σ : Type} {nc : Nat} {pconn : List Nat} {f : Nat → Nat → Nat → Nat → σ → M σ} {s : σ} (hp : RowPos nc pconn) (P : Nat → σ → Prop) (h0 : P 0 s)
    (hs : ∀ c t, c < nc → P c t → ∃ t', f c (deg pconn c) (pconn.getD c 0) (off2 pconn c) t = .ok t' ∧ P (c + 1) t') :
    ∃ t, cells nc pconn f s = .ok t ∧ P nc t := by
  unfold cells
  obtain ⟨r, hr, h1, h2⟩ := loop_inv (n := nc) (s := (s, 0)) (f := fun c (t : σ × Nat) => do
    let p1 ← rd pconn c
    let e ← rd pconn (c + 1)
    let u ← f c (e - p1) p1 t.2 t.1
    .ok (u, t.2 + (e - p1) * (e - p1))) (fun c (t : σ × Nat) => P c t.1 ∧ t.2 = off2 pconn c) ⟨h0, rfl⟩ (by
    rintro c ⟨t, k⟩ hc ⟨h1, h2⟩
    simp only at h1 h2
    obtain ⟨t', e, h3⟩ := hs c t hc h1
    subst h2
    refine ⟨(t', off2 pconn (c + 1)), ?_, h3, rfl⟩
    simp only [rd_of_getElem? (hp.get (c := c) (by omega)), rd_of_getElem? (hp.get (c := c + 1) hc), bind_ok]
    unfold deg at e
    rw [e, bind_ok, off2_succ]
    rfl)
  exact ⟨r.1, by rw [hr, bind_ok], h1⟩

/-- Distinct half faces are at distinct positions. -/
theorem pos_ne {nc : Nat} {pconn : List Nat} (hp : RowPos nc pconn) {c d i j : Nat} (hc : c < nc) (hd : d < nc) (hcd : c ≠ d) (hi : i < deg pconn c) (hj : j < deg pconn d) :
    pconn.getD d 0 + j ≠ pconn.getD c 0 + i := by
  have h1 := pos_add hp hc
  have h2 := pos_add hp hd
  rcases Nat.lt_or_ge c d with h | h
  · have := hp.mono' (c := c + 1) (d := d) h (by omega)
    omega
  · have := hp.mono' (c := d + 1) (d := c) (by omega) (by omega)
    omega

/-- The arrays of the structure fit the cells. -/
structure Sized (nc : Nat) (pconn : List Nat) (mx : Nat) (s : Sys) : Prop where
  L : s.L.length = nc
  q : s.q.length = nc
  F1 : s.F1.length = pconn.getD nc 0
  F2 : s.F2.length = pconn.getD nc 0
  one : mx ≤ s.one.length
  ones : ∀ i, i < mx → s.one.getD i 0 = 1
  S : mx * mx ≤ s.S.length
  r : mx ≤ s.r.length

/-- The eliminated quantities of the first `m` cells. -/
def Has (pconn : List Nat) (F1 F2 : Nat → Nat → Rat) (L : Nat → Rat) (m : Nat) (s : Sys) : Prop :=
  ∀ c, c < m → (∀ i, i < deg pconn c → hf pconn s.F1 c i = F1 c i ∧ hf pconn s.F2 c i = F2 c i) ∧ s.L.getD c 0 = L c

theorem sum_ones {n : Nat} {one : List Rat} (h : ∀ i, i < n → one.getD i 0 = 1) (v : Nat → Rat) :
    ∑ i ∈ Finset.range n, one.getD (0 + i) 0 * v i = ∑ i ∈ Finset.range n, v i :=
  Finset.sum_congr rfl (fun i hi => by rw [Nat.zero_add, h i (Finset.mem_range.1 hi), one_mul])

theorem sum_ones' {n : Nat} {one : List Rat} (h : ∀ i, i < n → one.getD i 0 = 1) (v : Nat → Rat) :
    ∑ i ∈ Finset.range n, v i * one.getD (0 + i) 0 = ∑ i ∈ Finset.range n, v i :=
  Finset.sum_congr rfl (fun i hi => by rw [Nat.zero_add, h i (Finset.mem_range.1 hi), mul_one])

/-- A block of half faces is replaced: the blocks of the other cells stay. -/
theorem upd_hf {nc : Nat} {pconn : List Nat} (hp : RowPos nc pconn) {a b : List Rat} {c : Nat} (hc : c < nc) {v : Nat → Rat} (h : Upd a (pconn.getD c 0) (deg pconn c) v b) :
    (∀ i, i < deg pconn c → hf pconn b c i = v i) ∧ ∀ d, d < nc → d ≠ c → ∀ j, j < deg pconn d → hf pconn b d j = hf pconn a d j :=
  ⟨fun i hi => h.2.1 i hi, fun d hd hdc j hj => h.2.2 _ (fun i hi => (pos_ne hp hc hd (Ne.symm hdc) hi hj).symm)⟩

/-- One more cell has been eliminated. -/
theorem Has.step {nc : Nat} {pconn : List Nat} (hp : RowPos nc pconn) {F1 F2 : Nat → Nat → Rat} {L : Nat → Rat} {c : Nat} (hc : c < nc) {s : Sys} {f1 f2 l : List Rat} {x : Rat}
    (h : Has pconn F1 F2 L c s) (h1 : Upd s.F1 (pconn.getD c 0) (deg pconn c) (F1 c) f1) (h2 : Upd s.F2 (pconn.getD c 0) (deg pconn c) (F2 c) f2)
    (hl : c < s.L.length) (hx : x = L c) (he : l = s.L.set c x) : Has pconn F1 F2 L (c + 1) { s with F1 := f1, F2 := f2, L := l } := by
  intro d hd
  subst he
  obtain ⟨a1, b1⟩ := upd_hf hp hc h1
  obtain ⟨a2, b2⟩ := upd_hf hp hc h2
  by_cases hdc : d = c
  · subst hdc
    exact ⟨fun i hi => ⟨a1 i hi, a2 i hi⟩, by simp only; rw [getD_set hl, if_pos rfl, hx]⟩
  · have hd' : d < c := by omega
    refine ⟨fun i hi => ⟨?_, ?_⟩, ?_⟩
    · rw [← ((h d hd').1 i hi).1]; exact b1 d (by omega) hdc i hi
    · rw [← ((h d hd').1 i hi).2]; exact b2 d (by omega) hdc i hi
    · simp only; rw [getD_set hl, if_neg hdc]; exact (h d hd').2

/-- The symmetric elimination. -/
theorem schurSymm_ok {nc : Nat} {pconn : List Nat} {mx : Nat} {Binv : List Rat} {s : Sys} (hp : RowPos nc pconn) (hm : ∀ c, c < nc → deg pconn c ≤ mx)
    (hB : off2 pconn nc ≤ Binv.length) (hs : Sized nc pconn mx s) (hF : s.F2 = s.F1) :
    ∃ t, schurSymm nc pconn Binv s = .ok t ∧ Sized nc pconn mx t ∧ t.F2 = t.F1 ∧
      Has pconn (fun c i => ∑ j ∈ Finset.range (deg pconn c), ip pconn Binv c i j) (fun c i => ∑ j ∈ Finset.range (deg pconn c), ip pconn Binv c i j)
        (fun c => ∑ i ∈ Finset.range (deg pconn c), ∑ j ∈ Finset.range (deg pconn c), ip pconn Binv c i j) nc t := by
  unfold schurSymm
  refine cells_inv hp (fun c t => Sized nc pconn mx t ∧ t.F2 = t.F1 ∧ Has pconn _ _ _ c t) ⟨hs, hF, fun c hc => absurd hc (Nat.not_lt_zero _)⟩ ?_
  rintro c t hc ⟨h1, h2, h3⟩
  have hn := hm c hc
  have hpl := pos_le hp hc
  have ho := off2_le (pconn := pconn) hc
  obtain ⟨f, e1, u1⟩ := gemv_ok (n := deg pconn c) (alpha := 1) (beta := 0) (A := Binv) (x := t.one) (y := t.F1) (oA := off2 pconn c) (ox := 0) (oy := pconn.getD c 0)
    (by omega) (by have := h1.one; omega) (by rw [h1.F1]; exact hpl)
  have u1' : Upd t.F1 (pconn.getD c 0) (deg pconn c) (fun i => ∑ j ∈ Finset.range (deg pconn c), ip pconn Binv c i j) f := by
    refine ⟨u1.1, fun i hi => ?_, u1.2.2⟩
    rw [u1.2.1 i hi]
    simp only
    rw [one_mul, zero_mul, add_zero, sum_ones' (fun i hi => h1.ones i (by omega))]
    rfl
  have hl : c < t.L.length := by rw [h1.L]; exact hc
  refine ⟨{ t with F1 := f, F2 := f, L := t.L.set c (∑ i ∈ Finset.range (deg pconn c), ∑ j ∈ Finset.range (deg pconn c), ip pconn Binv c i j) }, ?_, ?_, rfl, ?_⟩
  · unfold schurSymmCell
    rw [e1, bind_ok, dot_ok (by have := h1.one; omega) (by rw [u1.1, h1.F1]; exact hpl), bind_ok, sum_ones (fun i hi => h1.ones i (by omega)),
      Finset.sum_congr rfl (fun i hi => u1'.2.1 i (Finset.mem_range.1 hi)), wr_ok hl, bind_ok]
  · exact ⟨by simp [h1.L], h1.q, by simp only [u1.1]; exact h1.F1, by simp only [u1.1]; exact h1.F1, h1.one, h1.ones, h1.S, h1.r⟩
  · exact Has.step hp hc h3 u1' (by rw [h2]; exact u1') hl rfl rfl

/-- The elimination with a second coupling `C - V`. -/
theorem schurUnsymm_ok {nc : Nat} {pconn : List Nat} {mx : Nat} {Binv BIV P : List Rat} {s : Sys} (hp : RowPos nc pconn) (hm : ∀ c, c < nc → deg pconn c ≤ mx)
    (hB : off2 pconn nc ≤ Binv.length) (hV : pconn.getD nc 0 ≤ BIV.length) (hP : nc ≤ P.length) (hs : Sized nc pconn mx s) :
    ∃ t, schurUnsymm nc pconn Binv BIV P s = .ok t ∧ Sized nc pconn mx t ∧
      Has pconn (fun c i => ∑ j ∈ Finset.range (deg pconn c), ip pconn Binv c i j)
        (fun c i => ∑ j ∈ Finset.range (deg pconn c), ip pconn Binv c i j - hf pconn BIV c i)
        (fun c => ∑ i ∈ Finset.range (deg pconn c), (∑ j ∈ Finset.range (deg pconn c), ip pconn Binv c i j - hf pconn BIV c i) - P.getD c 0) nc t := by
  unfold schurUnsymm
  refine cells_inv hp (fun c t => Sized nc pconn mx t ∧ Has pconn _ _ _ c t) ⟨hs, fun c hc => absurd hc (Nat.not_lt_zero _)⟩ ?_
  rintro c t hc ⟨h1, h3⟩
  have hn := hm c hc
  have hpl := pos_le hp hc
  have ho := off2_le (pconn := pconn) hc
  obtain ⟨f, e1, u1⟩ := gemv_ok (n := deg pconn c) (alpha := 1) (beta := 0) (A := Binv) (x := t.one) (y := t.F1) (oA := off2 pconn c) (ox := 0) (oy := pconn.getD c 0)
    (by omega) (by have := h1.one; omega) (by rw [h1.F1]; exact hpl)
  have u1' : Upd t.F1 (pconn.getD c 0) (deg pconn c) (fun i => ∑ j ∈ Finset.range (deg pconn c), ip pconn Binv c i j) f := by
    refine ⟨u1.1, fun i hi => ?_, u1.2.2⟩
    rw [u1.2.1 i hi]
    simp only
    rw [one_mul, zero_mul, add_zero, sum_ones' (fun i hi => h1.ones i (by omega))]
    rfl
  obtain ⟨g, e2, u2⟩ := copy_ok (n := deg pconn c) (x := f) (y := t.F2) (ox := pconn.getD c 0) (oy := pconn.getD c 0) (by rw [u1.1, h1.F1]; exact hpl) (by rw [h1.F2]; exact hpl)
  obtain ⟨k, e3, u3⟩ := axpy_ok (n := deg pconn c) (alpha := -1) (x := BIV) (y := g) (ox := pconn.getD c 0) (oy := pconn.getD c 0) (by omega) (by rw [u2.1, h1.F2]; exact hpl)
  have u3' : Upd t.F2 (pconn.getD c 0) (deg pconn c) (fun i => ∑ j ∈ Finset.range (deg pconn c), ip pconn Binv c i j - hf pconn BIV c i) k := by
    refine ⟨by rw [u3.1, u2.1], fun i hi => ?_, fun k hk => by rw [u3.2.2 k hk, u2.2.2 k hk]⟩
    rw [u3.2.1 i hi]
    simp only
    rw [u2.2.1 i hi]
    simp only
    rw [u1'.2.1 i hi]
    unfold hf
    ring
  have hl : c < t.L.length := by rw [h1.L]; exact hc
  refine ⟨{ t with F1 := f, F2 := k, L := t.L.set c (∑ i ∈ Finset.range (deg pconn c), (∑ j ∈ Finset.range (deg pconn c), ip pconn Binv c i j - hf pconn BIV c i) - P.getD c 0) }, ?_, ?_, ?_⟩
  · unfold schurUnsymmCell
    rw [e1, bind_ok, e2, bind_ok, e3, bind_ok, dot_ok (by have := h1.one; omega) (by rw [u1.1, h1.F1]; exact hpl), bind_ok, sum_ones (fun i hi => h1.ones i (by omega)),
      Finset.sum_congr rfl (fun i hi => u1'.2.1 i (Finset.mem_range.1 hi)), dot_ok (by have := h1.one; omega) (by omega), bind_ok, sum_ones (fun i hi => h1.ones i (by omega)),
      rdD (by omega), bind_ok, wr_ok hl, bind_ok, Finset.sum_sub_distrib]
    rfl
  · exact ⟨by simp [h1.L], h1.q, by simp only [u1.1]; exact h1.F1, by simp only [u3'.1]; exact h1.F2, h1.one, h1.ones, h1.S, h1.r⟩
  · exact Has.step hp hc h3 u1' u3' hl rfl rfl

/-- The elimination with any second coupling `C2`. -/
theorem schurGen_ok {nc : Nat} {pconn : List Nat} {mx : Nat} {Binv C2 P : List Rat} {s : Sys} (hp : RowPos nc pconn) (hm : ∀ c, c < nc → deg pconn c ≤ mx)
    (hB : off2 pconn nc ≤ Binv.length) (hV : pconn.getD nc 0 ≤ C2.length) (hP : nc ≤ P.length) (hs : Sized nc pconn mx s) :
    ∃ t, schurGen nc pconn Binv C2 P s = .ok t ∧ Sized nc pconn mx t ∧
      Has pconn (fun c i => ∑ j ∈ Finset.range (deg pconn c), ip pconn Binv c i j)
        (fun c i => ∑ j ∈ Finset.range (deg pconn c), ip pconn Binv c i j * hf pconn C2 c j)
        (fun c => ∑ i ∈ Finset.range (deg pconn c), (∑ j ∈ Finset.range (deg pconn c), ip pconn Binv c i j * hf pconn C2 c j) - P.getD c 0) nc t := by
  unfold schurGen
  refine cells_inv hp (fun c t => Sized nc pconn mx t ∧ Has pconn _ _ _ c t) ⟨hs, fun c hc => absurd hc (Nat.not_lt_zero _)⟩ ?_
  rintro c t hc ⟨h1, h3⟩
  have hn := hm c hc
  have hpl := pos_le hp hc
  have ho := off2_le (pconn := pconn) hc
  obtain ⟨f, e1, u1⟩ := gemv_ok (n := deg pconn c) (alpha := 1) (beta := 0) (A := Binv) (x := t.one) (y := t.F1) (oA := off2 pconn c) (ox := 0) (oy := pconn.getD c 0)
    (by omega) (by have := h1.one; omega) (by rw [h1.F1]; exact hpl)
  have u1' : Upd t.F1 (pconn.getD c 0) (deg pconn c) (fun i => ∑ j ∈ Finset.range (deg pconn c), ip pconn Binv c i j) f := by
    refine ⟨u1.1, fun i hi => ?_, u1.2.2⟩
    rw [u1.2.1 i hi]
    simp only
    rw [one_mul, zero_mul, add_zero, sum_ones' (fun i hi => h1.ones i (by omega))]
    rfl
  obtain ⟨k, e2, u2⟩ := gemv_ok (n := deg pconn c) (alpha := 1) (beta := 0) (A := Binv) (x := C2) (y := t.F2) (oA := off2 pconn c) (ox := pconn.getD c 0) (oy := pconn.getD c 0)
    (by omega) (by omega) (by rw [h1.F2]; exact hpl)
  have u2' : Upd t.F2 (pconn.getD c 0) (deg pconn c) (fun i => ∑ j ∈ Finset.range (deg pconn c), ip pconn Binv c i j * hf pconn C2 c j) k := by
    refine ⟨u2.1, fun i hi => ?_, u2.2.2⟩
    rw [u2.2.1 i hi]
    simp only
    rw [one_mul, zero_mul, add_zero]
    rfl
  have hl : c < t.L.length := by rw [h1.L]; exact hc
  refine ⟨{ t with F1 := f, F2 := k, L := t.L.set c (∑ i ∈ Finset.range (deg pconn c), (∑ j ∈ Finset.range (deg pconn c), ip pconn Binv c i j * hf pconn C2 c j) - P.getD c 0) }, ?_, ?_, ?_⟩
  · unfold schurGenCell
    rw [e1, bind_ok, e2, bind_ok, dot_ok (by have := h1.one; omega) (by rw [u2.1, h1.F2]; exact hpl), bind_ok, sum_ones (fun i hi => h1.ones i (by omega)),
      Finset.sum_congr rfl (fun i hi => u2'.2.1 i (Finset.mem_range.1 hi)), rdD (by omega), bind_ok, wr_ok hl, bind_ok]
  · exact ⟨by simp [h1.L], h1.q, by simp only [u1.1]; exact h1.F1, by simp only [u2'.1]; exact h1.F2, h1.one, h1.ones, h1.S, h1.r⟩
  · exact Has.step hp hc h3 u1' u2' hl rfl rfl

end Opm.Hybsys
