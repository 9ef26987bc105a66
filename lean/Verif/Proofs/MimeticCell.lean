import Verif.Proofs.Mimetic
import Verif.Proofs.MimeticAlg
import Verif.Spec.Mimetic
/-!
# Mimetic inner products: the loop over the cells
-/

namespace Opm.Mimetic
open Opm.Hybsys (deg off2 face cells cells_inv pos_add off2_le)

variable {K : Type} [Field K] [DecidableEq K]

/-- The sizes of the arrays. -/
structure WSized (d mx lwork nB : Nat) (w : Work K) : Prop where
  Binv : w.Binv.length = nB
  C : w.C.length = mx * d
  N : w.N.length = mx * d
  A : w.A.length = mx
  work : w.work.length = lwork
  cc : w.cc.length = 3

section
variable {nc nf d mx lwork nB : Nat} {pconn conn : List Nat} {g : Geo K} (hm : MeshOk nc nf d mx pconn conn g)
include hm

theorem conn_at {c i : Nat} (hc : c < nc) (hi : i < deg pconn c) : conn[pconn.getD c 0 + i]? = some (face pconn conn c i) ∧ face pconn conn c i < nf := by
  have h1 := pos_add hm.pos hc
  obtain ⟨f, hf, hlt⟩ := hm.conn (pconn.getD c 0 + i) (hm.pos.lt_total hc (by omega))
  have : face pconn conn c i = f := by
    unfold face
    rw [List.getD_eq_getElem?_getD, hf]
    rfl
  rw [this]
  exact ⟨hf, hlt⟩

theorem halfFace_ok {c i : Nat} (hc : c < nc) (hi : i < deg pconn c) {w : Work K} (hw : WSized d mx lwork nB w) (hcc : ∀ j, j < d → w.cc.getD j 0 = g.ccentroid.getD (j + c * d) 0) :
    ∃ w', halfFace d (deg pconn c) (pconn.getD c 0) conn g c i w = .ok w' ∧ WSized d mx lwork nB w' ∧ w'.Binv = w.Binv ∧ w'.cc = w.cc ∧
      (∀ i', w'.A.getD i' 0 = if i' = i then area pconn conn g c i else w.A.getD i' 0) ∧
      ∀ i' j, i' < deg pconn c → j < d → w'.C.getD (i' + j * deg pconn c) 0 = (if i' = i then arm d pconn conn g c i j else w.C.getD (i' + j * deg pconn c) 0) ∧
        w'.N.getD (i' + j * deg pconn c) 0 = if i' = i then normal d pconn conn g c i j else w.N.getD (i' + j * deg pconn c) 0 := by
  obtain ⟨g1, g2⟩ := conn_at hm hc hi
  have hmx := hm.mx c hc
  set n := deg pconn c with hn
  set f := face pconn conn c i with hf
  have hnd : n * d ≤ mx * d := Nat.mul_le_mul_right d hmx
  have l1 := hm.fneighbour
  have l2 := hm.farea
  have hfd : ∀ j, j < d → j + f * d < nf * d := fun j hj => by
    have := Nat.mul_le_mul_right d (show f + 1 ≤ nf from g2)
    rw [Nat.add_mul] at this
    omega
  have hnb : g.fneighbour[2 * f]? = some (g.fneighbour.getD (2 * f) 0) := by
    have : 2 * f < g.fneighbour.length := by omega
    simp [this]
  have hA : i < w.A.length := by rw [hw.A]; omega
  unfold halfFace
  rw [rd_of_getElem? g1, bind_ok, rd_of_getElem? hnb, bind_ok]
  simp only
  rw [rdK (by omega), bind_ok, wr_ok hA, bind_ok]
  have hs : (if g.fneighbour.getD (2 * f) 0 = (c : Int) then (1 : K) else -1) = if g.fneighbour[2 * f]? = some (c : Int) then 1 else -1 := by
    rw [hnb]
    simp only [Option.some.injEq]
  obtain ⟨CN, e, h1, h2, h3⟩ := loop_inv (n := d) (s := (w.C, w.N)) (f := fun j (CN : List K × List K) => do
    let x ← rd g.fcentroid (j + f * d)
    let y ← rd w.cc j
    let C ← wr CN.1 (i + j * n) (x - y)
    let n' ← rd g.fnormal (j + f * d)
    let N ← wr CN.2 (i + j * n) ((if g.fneighbour.getD (2 * f) 0 = (c : Int) then (1 : K) else -1) * n')
    .ok (C, N)) (fun m (CN : List K × List K) => CN.1.length = mx * d ∧ CN.2.length = mx * d ∧
      ∀ i' j, i' < n → j < d → CN.1.getD (i' + j * n) 0 = (if i' = i ∧ j < m then arm d pconn conn g c i j else w.C.getD (i' + j * n) 0) ∧
        CN.2.getD (i' + j * n) 0 = if i' = i ∧ j < m then normal d pconn conn g c i j else w.N.getD (i' + j * n) 0)
    ⟨hw.C, hw.N, fun i' j _ _ => ⟨by rw [if_neg (by omega)], by rw [if_neg (by omega)]⟩⟩ (by
    rintro j ⟨C, N⟩ hj ⟨h1, h2, h3⟩
    simp only at h1 h2 h3
    have q1 := hfd j hj
    have q2 := hm.fcentroid
    have q3 := hm.fnormal
    have q4 := hm.dim
    have q5 := hw.cc
    have q6 := lt_block' hi hj
    have hC : i + j * n < C.length := by omega
    have hN : i + j * n < N.length := by omega
    rw [rdK (by omega), bind_ok, rdK (by omega), bind_ok, wr_ok hC, bind_ok, rdK (by omega), bind_ok, wr_ok hN, bind_ok]
    refine ⟨_, rfl, by simp [h1], by simp [h2], fun i' j' hi' hj' => ?_⟩
    simp only
    obtain ⟨v1, v2⟩ := h3 i' j' hi' hj'
    rw [getD_setK hC, getD_setK hN]
    by_cases e : i' + j' * n = i + j * n
    · obtain ⟨rfl, rfl⟩ := pos_inj hi' hi e
      have q : i' = i' ∧ j' < j' + 1 := ⟨rfl, by omega⟩
      refine ⟨?_, ?_⟩
      · rw [if_pos rfl, if_pos q, hcc j' hj']
        rfl
      · rw [if_pos rfl, if_pos q, hs]
        rfl
    · rw [if_neg e, if_neg e, v1, v2]
      have : (i' = i ∧ j' < j) ↔ (i' = i ∧ j' < j + 1) := by
        constructor
        · rintro ⟨a, b⟩; exact ⟨a, by omega⟩
        · rintro ⟨rfl, b⟩
          refine ⟨rfl, ?_⟩
          rcases Nat.lt_or_ge j' j with h | h
          · exact h
          · exact absurd (by rw [show j' = j by omega]) e
      simp only [this]
      exact ⟨trivial, trivial⟩)
  rw [e, bind_ok]
  refine ⟨_, rfl, ⟨hw.Binv, h1, h2, by simp [hw.A], hw.work, hw.cc⟩, rfl, rfl, fun i' => ?_, fun i' j hi' hj => ?_⟩
  · simp only
    rw [getD_setK hA]
    rfl
  · simp only
    obtain ⟨v1, v2⟩ := h3 i' j hi' hj
    rw [v1, v2]
    by_cases e : i' = i
    · have q : i' = i ∧ j < d := ⟨e, hj⟩
      simp only [if_pos q, if_pos e, and_self]
    · have q : ¬(i' = i ∧ j < d) := fun h => e h.1
      simp only [if_neg q, if_neg e, and_self]

variable {qr : Nat → Nat → List K → List K}

/-- What is known of a cell that has been treated: the formula holds with an orthonormal factor. -/
def Done (d : Nat) (pconn conn : List Nat) (g : Geo K) (Binv : List K) (c : Nat) : Prop :=
  ∃ Q R : Nat → Nat → K, (∀ k l, k < d → l < d → ∑ i ∈ Finset.range (deg pconn c), Q i k * Q i l = if k = l then 1 else 0) ∧
    (∀ i j, i < deg pconn c → j < d → arm d pconn conn g c i j * area pconn conn g c i = ∑ k ∈ Finset.range d, Q i k * R k j) ∧
    ∀ i j, i < deg pconn c → j < deg pconn c → ipK pconn Binv c i j = cellIp d (normal d pconn conn g c) Q (permOf d g c) (area pconn conn g c) (g.cvol.getD c 0)
      (6 * (∑ k ∈ Finset.range d, permOf d g c k k) / ((d : K) * g.cvol.getD c 0)) i j

theorem ipCell_ok (hq : Orthonormalises qr nc d mx pconn conn g) (hlw : mx * d ≤ lwork) (hB : off2 pconn nc ≤ nB) {c : Nat} (hc : c < nc) {w : Work K} (hw : WSized d mx lwork nB w) :
    ∃ w', ipCell qr d lwork conn g c (deg pconn c) (pconn.getD c 0) (off2 pconn c) w = .ok w' ∧ WSized d mx lwork nB w' ∧
      Keep w.Binv w'.Binv (off2 pconn c) (deg pconn c * deg pconn c) ∧ Done d pconn conn g w'.Binv c := by
  have hmx := hm.mx c hc
  have hnd : deg pconn c * d ≤ mx * d := Nat.mul_le_mul_right d hmx
  have hcd : ∀ j, j < d → j + c * d < nc * d := fun j hj => by
    have := Nat.mul_le_mul_right d (show c + 1 ≤ nc from hc)
    rw [Nat.add_mul] at this
    omega
  unfold ipCell
  obtain ⟨cc, e1, lcc, vcc⟩ := loop_inv (n := d) (s := w.cc) (f := fun j cc => do
    let x ← rd g.ccentroid (j + c * d)
    wr cc j x) (fun m cc => cc.length = 3 ∧ ∀ j, j < m → cc.getD j 0 = g.ccentroid.getD (j + c * d) 0) ⟨hw.cc, fun j hj => absurd hj (Nat.not_lt_zero _)⟩ (by
    rintro j cc hj ⟨h1, h2⟩
    have := hcd j hj
    have := hm.ccentroid
    have := hm.dim
    have hl : j < cc.length := by omega
    rw [rdK (by omega), bind_ok, wr_ok hl]
    refine ⟨_, rfl, by simp [h1], fun j' hj' => ?_⟩
    rw [getD_setK hl]
    split
    · next e => rw [e]
    · exact h2 j' (by omega))
  rw [e1, bind_ok]
  obtain ⟨w1, e2, s1, b1, c1, v1⟩ := loop_inv (n := deg pconn c) (s := { w with cc := cc }) (f := halfFace d (deg pconn c) (pconn.getD c 0) conn g c)
    (fun m (w1 : Work K) => WSized d mx lwork nB w1 ∧ w1.Binv = w.Binv ∧ w1.cc = cc ∧ ∀ i, i < m → i < deg pconn c → w1.A.getD i 0 = area pconn conn g c i ∧
      ∀ j, j < d → w1.C.getD (i + j * deg pconn c) 0 = arm d pconn conn g c i j ∧ w1.N.getD (i + j * deg pconn c) 0 = normal d pconn conn g c i j)
    ⟨⟨hw.Binv, hw.C, hw.N, hw.A, hw.work, lcc⟩, rfl, rfl, fun i hi => absurd hi (Nat.not_lt_zero _)⟩ (by
    rintro i w1 hi ⟨s1, b1, c1, v1⟩
    obtain ⟨w2, e, s2, b2, c2, vA, vC⟩ := halfFace_ok hm hc hi s1 (by rw [c1]; exact vcc)
    refine ⟨w2, e, s2, b2.trans b1, c2.trans c1, fun i' hi' hd => ⟨?_, fun j hj => ?_⟩⟩
    · rw [vA]
      split
      · next e => rw [e]
      · exact (v1 i' (by omega) hd).1
    · obtain ⟨q1, q2⟩ := vC i' j hd hj
      rw [q1, q2]
      by_cases e : i' = i
      · rw [if_pos e, if_pos e, e]; exact ⟨rfl, rfl⟩
      · rw [if_neg e, if_neg e]
        exact (v1 i' (by omega) hd).2 j hj)
  rw [e2, bind_ok, rdK (by have := hm.cvol; omega), bind_ok]
  have hX : off2 pconn c + deg pconn c * deg pconn c ≤ w1.Binv.length := by
    rw [s1.Binv]
    have := off2_le (pconn := pconn) hc
    omega
  obtain ⟨C', Q, Y, l1, vC', eQ, e3, k3, v3⟩ := spanNullspace_ok (qr := qr) (n := deg pconn c) (d := d) (C := w1.C) (A := w1.A) hX (by rw [s1.C]; exact hnd) (by rw [s1.A]; exact hmx) (by
    intro C' hl hv
    rw [(hq c C' hc (hl.trans s1.C) (fun i j hi hj => by rw [hv i j hi hj, ((v1 i hi hi).2 j hj).1, (v1 i hi hi).1])).len, hl])
  have hfac := hq c C' hc (l1.trans s1.C) (fun i j hi hj => by rw [vC' i j hi hj, ((v1 i hi hi).2 j hj).1, (v1 i hi hi).1])
  rw [← eQ] at hfac
  have hperm : c * d * d + d * d ≤ g.perm.length := by
    have := Nat.mul_le_mul_right d (Nat.mul_le_mul_right d (show c + 1 ≤ nc from hc))
    rw [Nat.add_mul, Nat.add_mul, Nat.one_mul] at this
    have := hm.perm
    omega
  obtain ⟨Z, wk, e4, l4, k4, v4⟩ := linpressExact_ok (n := deg pconn c) (d := d) (o := off2 pconn c) (oK := c * d * d) (lwork := lwork) (vol := g.cvol.getD c 0) (perm := g.perm) (N := w1.N) (X := Y) (work := w1.work)
    (by rw [k3.1]; exact hX) (by rw [s1.N]; exact hnd) hperm (by omega) s1.work.symm (hm.vol c hc) hm.dimNe
  unfold ipSimple
  rw [e3, bind_ok]
  simp only
  rw [e4, bind_ok]
  refine ⟨_, rfl, ⟨k4.1.trans (k3.1.trans s1.Binv), ?_, s1.N, s1.A, l4.trans s1.work, s1.cc⟩, ?_, ?_⟩
  · simp only
    rw [hfac.len, l1, s1.C]
  · have := k3.trans k4
    rw [b1] at this
    exact this
  · obtain ⟨R, hR⟩ := hfac.span
    refine ⟨fun i k => Q.getD (i + k * deg pconn c) 0, R, hfac.ortho, fun i j hi hj => ?_, fun i j hi hj => ?_⟩
    · rw [← hR i j hi hj, vC' i j hi hj, ((v1 i hi hi).2 j hj).1, (v1 i hi hi).1]
    · unfold ipK cellIp
      simp only
      rw [v4 i j hi hj, v3 i j hi hj, (v1 i hi hi).1, (v1 j hj hj).1]
      congr 2
      refine Finset.sum_congr rfl (fun k hk => ?_)
      rw [((v1 j hj hj).2 k (Finset.mem_range.1 hk)).2]
      congr 1
      exact Finset.sum_congr rfl (fun l hl => by rw [((v1 i hi hi).2 l (Finset.mem_range.1 hl)).2]; rfl)

theorem Done.keep {A B : List K} {c c' : Nat} (hc : c < c') (h : Done d pconn conn g A c) (hk : Keep A B (off2 pconn c') (deg pconn c' * deg pconn c')) : Done d pconn conn g B c := by
  obtain ⟨Q, R, h1, h2, h3⟩ := h
  refine ⟨Q, R, h1, h2, fun i j hi hj => ?_⟩
  rw [← h3 i j hi hj]
  unfold ipK
  have := lt_block hi hj
  have := off2_le (pconn := pconn) hc
  exact hk.2 _ (Or.inl (by omega))

/-- All the cells. -/
theorem ipSimpleAll_ok (hq : Orthonormalises qr nc d mx pconn conn g) (junk : Nat → K) {Binv : List K} (hB : off2 pconn nc ≤ Binv.length) :
    ∃ B, ipSimpleAll qr junk nc d mx pconn conn g Binv = .ok B ∧ B.length = Binv.length ∧ ∀ c, c < nc → Done d pconn conn g B c := by
  unfold ipSimpleAll
  simp only
  obtain ⟨w, e, h1, h2⟩ := cells_inv (f := ipCell qr d (64 * (mx * d)) conn g) (s := ({ Binv := Binv, C := (List.range (mx * d)).map junk, N := (List.range (mx * d)).map junk, A := (List.range mx).map junk, work := (List.range (64 * (mx * d))).map junk, cc := [0, 0, 0] } : Work K)) hm.pos
    (fun m (w : Work K) => WSized d mx (64 * (mx * d)) Binv.length w ∧ ∀ c, c < m → Done d pconn conn g w.Binv c)
    ⟨⟨rfl, by simp, by simp, by simp, by simp, rfl⟩, fun c hc => absurd hc (Nat.not_lt_zero _)⟩ (by
    rintro c w hc ⟨h1, h2⟩
    obtain ⟨w', e, s, k, dn⟩ := ipCell_ok hm hq (by omega) hB hc h1
    refine ⟨w', e, s, fun c' hc' => ?_⟩
    rcases Nat.lt_or_ge c' c with h | h
    · exact (h2 c' h).keep hm h k
    · obtain rfl : c' = c := by omega
      exact dn)
  rw [e, bind_ok]
  exact ⟨_, rfl, h1.Binv, h2⟩

end

end Opm.Mimetic
