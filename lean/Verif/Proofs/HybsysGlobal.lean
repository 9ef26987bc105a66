import Verif.Proofs.HybsysBc
import Verif.Proofs.IfsSys
/-!
# Hybrid systems: assembly and back substitution
-/

namespace Opm.Hybsys
open Opm Opm.MiscUtil Opm.SparseSys
open Opm.IfsTpfa (getD_set MatOk ElmAt HasElm SysOk XR Res addSa_res addB_res)

/-- What is known of the cells: the couplings, the inner products and the data. -/
structure Data where
  pconn : List Nat
  conn : List Nat
  Binv : List Rat
  gpress : List Rat
  src : List Rat
  F1 : Nat → Nat → Rat
  F2 : Nat → Nat → Rat
  L : Nat → Rat

namespace Data
variable (D : Data)

def n (c : Nat) : Nat := deg D.pconn c
def B (c i j : Nat) : Rat := ip D.pconn D.Binv c i j
def g (c i : Nat) : Rat := hf D.pconn D.gpress c i
def q (c : Nat) : Rat := D.src.getD c 0 - ∑ i ∈ Finset.range (D.n c), D.F2 c i * D.g c i
def S (c i j : Nat) : Rat := D.B c i j - D.F1 c i * D.F2 c j / D.L c
def r (c i : Nat) : Rat := ∑ j ∈ Finset.range (D.n c), D.B c i j * D.g c j + D.F1 c i * D.q c / D.L c

/-- The pressure of cell `c` for given pressures on its half faces. -/
def p (c : Nat) (pi : Nat → Rat) : Rat := (D.q c + ∑ i ∈ Finset.range (D.n c), D.F2 c i * pi i) / D.L c

/-- The half face fluxes of cell `c` for given pressures on its half faces. -/
def v (c : Nat) (pi : Nat → Rat) (i : Nat) : Rat := ∑ j ∈ Finset.range (D.n c), D.B c i j * (D.g c j + D.p c pi - pi j)

/-- The arrays fit. -/
structure Ok (nc nf mx : Nat) : Prop where
  pos : RowPos nc D.pconn
  mx : ∀ c, c < nc → deg D.pconn c ≤ mx
  Binv : off2 D.pconn nc ≤ D.Binv.length
  conn : D.pconn.getD nc 0 ≤ D.conn.length
  face : ∀ c i, c < nc → i < deg D.pconn c → face D.pconn D.conn c i < nf
  gpress : D.pconn.getD nc 0 ≤ D.gpress.length
  src : nc ≤ D.src.length
  L : ∀ c, c < nc → D.L c ≠ 0

theorem v_eq (c : Nat) (hF : ∀ i, i < D.n c → D.F1 c i = ∑ j ∈ Finset.range (D.n c), D.B c i j) (pi : Nat → Rat) {i : Nat} (hi : i < D.n c) :
    D.v c pi i = D.r c i - ∑ j ∈ Finset.range (D.n c), D.S c i j * pi j := by
  unfold v r S p
  have e1 : ∀ P : Rat, ∑ j ∈ Finset.range (D.n c), D.B c i j * (D.g c j + P - pi j) =
      ∑ j ∈ Finset.range (D.n c), D.B c i j * D.g c j + D.F1 c i * P - ∑ j ∈ Finset.range (D.n c), D.B c i j * pi j := by
    intro P
    rw [hF i hi, Finset.sum_mul, ← Finset.sum_add_distrib, ← Finset.sum_sub_distrib]
    exact Finset.sum_congr rfl (fun j _ => by ring)
  have e2 : ∑ j ∈ Finset.range (D.n c), (D.B c i j - D.F1 c i * D.F2 c j / D.L c) * pi j =
      ∑ j ∈ Finset.range (D.n c), D.B c i j * pi j - D.F1 c i / D.L c * ∑ j ∈ Finset.range (D.n c), D.F2 c j * pi j := by
    rw [Finset.mul_sum, ← Finset.sum_sub_distrib]
    exact Finset.sum_congr rfl (fun j _ => by ring)
  rw [e1, e2]
  ring

/-- The equation of the cell: the fluxes weighted with `w`, less `P` times the pressure, give the source. -/
theorem balance {c : Nat} {w : Nat → Rat} {P : Rat} (hF : ∀ j, j < D.n c → D.F2 c j = ∑ i ∈ Finset.range (D.n c), w i * D.B c i j)
    (hL : D.L c = ∑ i ∈ Finset.range (D.n c), D.F2 c i - P) (h0 : D.L c ≠ 0) (pi : Nat → Rat) :
    ∑ i ∈ Finset.range (D.n c), w i * D.v c pi i - P * D.p c pi = D.src.getD c 0 := by
  have e1 : ∑ i ∈ Finset.range (D.n c), w i * D.v c pi i = ∑ j ∈ Finset.range (D.n c), D.F2 c j * (D.g c j + D.p c pi - pi j) := by
    unfold v
    simp only [Finset.mul_sum]
    rw [Finset.sum_comm]
    refine Finset.sum_congr rfl (fun j hj => ?_)
    rw [hF j (Finset.mem_range.1 hj), Finset.sum_mul]
    exact Finset.sum_congr rfl (fun i _ => by ring)
  have e2 : ∑ j ∈ Finset.range (D.n c), D.F2 c j * (D.g c j + D.p c pi - pi j) =
      ∑ j ∈ Finset.range (D.n c), D.F2 c j * D.g c j + (D.L c + P) * D.p c pi - ∑ j ∈ Finset.range (D.n c), D.F2 c j * pi j := by
    rw [hL, sub_add_cancel, Finset.sum_mul, ← Finset.sum_add_distrib, ← Finset.sum_sub_distrib]
    exact Finset.sum_congr rfl (fun j _ => by ring)
  have e3 : D.L c * D.p c pi = D.q c + ∑ i ∈ Finset.range (D.n c), D.F2 c i * pi i := by
    unfold p
    field_simp
  rw [e1, e2]
  have : D.q c = D.src.getD c 0 - ∑ i ∈ Finset.range (D.n c), D.F2 c i * D.g c i := rfl
  linarith

end Data

theorem contrib_ok (D : Data) {nc nf mx : Nat} (hD : D.Ok nc nf mx) {unsymm : Bool} (hu : unsymm = false → Symmetric nc D.pconn D.Binv) {s : Sys} (hs : Sized nc D.pconn mx s)
    (hF : unsymm = false → s.F2 = s.F1) (hh : Has D.pconn D.F1 D.F2 D.L nc s) {c : Nat} (hc : c < nc) :
    ∃ S r, contrib unsymm c (deg D.pconn c) (D.pconn.getD c 0) (off2 D.pconn c) D.gpress D.src D.Binv s = .ok { s with S := S, r := r, q := s.q.set c (D.q c) } ∧
      S.length = s.S.length ∧ r.length = s.r.length ∧ Mat (deg D.pconn c) S (D.S c) ∧ ∀ i, i < deg D.pconn c → r.getD i 0 = D.r c i := by
  have hn := hD.mx c hc
  have hpl := pos_le hD.pos hc
  have ho := off2_le (pconn := D.pconn) hc
  have hsq : deg D.pconn c * deg D.pconn c ≤ mx * mx := Nat.mul_le_mul hn hn
  obtain ⟨hhF, hhL⟩ := hh c hc
  have hLne : s.L.getD c 0 ≠ 0 := by rw [hhL]; exact hD.L c hc
  have f1 : ∀ i, i < deg D.pconn c → s.F1.getD (D.pconn.getD c 0 + i) 0 = D.F1 c i := fun i hi => (hhF i hi).1
  have f2 : ∀ i, i < deg D.pconn c → s.F2.getD (D.pconn.getD c 0 + i) 0 = D.F2 c i := fun i hi => (hhF i hi).2
  have hBi := hD.Binv
  have hgl := hD.gpress
  have hsq' := hs.S
  have hr := hs.r
  obtain ⟨R, eR, lR, vR⟩ := cellrhs_ok (n := deg D.pconn c) (gpress := D.gpress) (Binv := D.Binv) (F1 := s.F1) (F2 := s.F2) (R := s.r) (p1 := D.pconn.getD c 0) (p2 := off2 D.pconn c)
    (src := D.src.getD c 0) (L := s.L.getD c 0) (by omega) (by omega) (by rw [hs.F1]; exact hpl) (by rw [hs.F2]; exact hpl) (by omega) hLne
  have hq : D.src.getD c 0 - ∑ i ∈ Finset.range (deg D.pconn c), s.F2.getD (D.pconn.getD c 0 + i) 0 * D.gpress.getD (D.pconn.getD c 0 + i) 0 = D.q c := by
    unfold Data.q
    congr 1
    exact Finset.sum_congr rfl (fun i hi => by rw [f2 i (Finset.mem_range.1 hi)]; rfl)
  rw [hq] at eR
  have hr' : ∀ i, i < deg D.pconn c → R.getD i 0 = D.r c i := by
    intro i hi
    rw [vR i hi, hq, f1 i hi, hhL]
    rfl
  have hq' : c < s.q.length := by rw [hs.q]; exact hc
  have hl' : c < s.L.length := by rw [hs.L]; exact hc
  cases unsymm with
  | true =>
    obtain ⟨S, eS, lS, mS⟩ := cellmatUnsymm_ok (n := deg D.pconn c) (Binv := D.Binv) (F1 := s.F1) (F2 := s.F2) (S := s.S) (p1 := D.pconn.getD c 0) (p2 := off2 D.pconn c)
      (L := s.L.getD c 0) (by omega) (by rw [hs.F1]; exact hpl) (by rw [hs.F2]; exact hpl) (by omega) hLne
    refine ⟨S, R, ?_, lS, lR, ⟨mS.1, fun i j hi hj => ?_⟩, hr'⟩
    · show cellcontribUnsymm _ _ _ _ _ _ _ _ = _
      unfold cellcontribUnsymm
      rw [rdD hl', bind_ok, eS, bind_ok, rdD (by have := hD.src; omega), bind_ok, eR, bind_ok, wr_ok hq', bind_ok]
    · rw [mS.2 i j hi hj]
      simp only
      rw [f1 i hi, f2 j hj, hhL]
      rfl
  | false =>
    have hF' := hF rfl
    obtain ⟨S, eS, lS, mS⟩ := cellmatSymm_ok (n := deg D.pconn c) (Binv := D.Binv) (F := s.F1) (S := s.S) (p1 := D.pconn.getD c 0) (p2 := off2 D.pconn c)
      (L := s.L.getD c 0) (by omega) (by rw [hs.F1]; exact hpl) (by omega) hLne (fun i j hi hj => hu rfl c i j hc hi hj)
    refine ⟨S, R, ?_, lS, lR, ⟨mS.1, fun i j hi hj => ?_⟩, hr'⟩
    · show cellcontribSymm _ _ _ _ _ _ _ _ = _
      unfold cellcontribSymm
      rw [hF'] at eR
      rw [rdD hl', bind_ok, eS, bind_ok, rdD (by have := hD.src; omega), bind_ok, eR, bind_ok, wr_ok hq', bind_ok]
    · rw [mS.2 i j hi hj]
      simp only
      rw [f1 i hi, ← hF', f2 j hj, hhL]
      rfl

theorem assembleCell_ok {n : Nat} {conn : List Nat} {p1 : Nat} {S r : List Rat} {A : Csr} {t : IfsTpfa.Sys} {g : Nat → Nat → Rat} (hA : MatOk A) (ht : SysOk A t)
    (hc : p1 + n ≤ conn.length) (hE : ∀ i j, i < n → j < n → HasElm A (conn.getD (p1 + i) 0) (conn.getD (p1 + j) 0)) (hS : Mat n S g) (hr : n ≤ r.length) :
    ∃ t', assembleCell n conn p1 S r A t = .ok t' ∧ SysOk A t' ∧ ∀ xr : XR, Res A t' xr = Res A t xr + ∑ i ∈ Finset.range n,
      if xr.2 = conn.getD (p1 + i) 0 then r.getD i 0 - ∑ j ∈ Finset.range n, g i j * xr.1 (conn.getD (p1 + j) 0) else 0 := by
  have hget : ∀ i, i < n → conn[p1 + i]? = some (conn.getD (p1 + i) 0) := fun i hi => by
    have : p1 + i < conn.length := by omega
    simp [this]
  unfold assembleCell
  refine loop_sum (SysOk A) (Res A) _ ht (fun i t hi ht => ?_)
  obtain ⟨k0, hk0⟩ := hE i i hi hi
  rw [rd_of_getElem? (hget i hi), bind_ok, check_ok (b := decide (conn.getD (p1 + i) 0 < A.m)) (by simp only [decide_eq_true_eq]; exact hk0.1), bind_ok]
  obtain ⟨t1, e1, h1, h2⟩ := loop_sum (n := n) (s := t) (f := fun jl t => do
      let g ← rd conn (p1 + jl)
      let jg ← elmIndex (conn.getD (p1 + i) 0) g A.ia A.ja
      let x ← rd S (i + jl * n)
      IfsTpfa.addSa jg x t) (SysOk A) (Res A) (fun j (xr : XR) => if xr.2 = conn.getD (p1 + i) 0 then -(g i j * xr.1 (conn.getD (p1 + j) 0)) else 0) ht (fun j t hj ht => by
    obtain ⟨k, hk⟩ := hE i j hi hj
    rw [rd_of_getElem? (hget j hj), bind_ok, hk.2.1, bind_ok, mat_rd hS hi hj, bind_ok]
    obtain ⟨t', e, a1, _, a3⟩ := addSa_res hA ht hk (g i j)
    exact ⟨t', e, a1, a3⟩)
  obtain ⟨t2, e2, h3, _, h4⟩ := addB_res h1 hk0.1 (r.getD i 0)
  refine ⟨t2, by rw [e1, bind_ok, rdD (by omega), bind_ok, e2], h3, fun xr => ?_⟩
  rw [h4, h2]
  by_cases h : xr.2 = conn.getD (p1 + i) 0
  · simp only [if_pos h]
    rw [Finset.sum_neg_distrib]
    ring
  · simp only [if_neg h]
    simp

/-- The equation a half face contributes to the equation of its face. -/
def rowTerm (D : Data) (bcond : List Int) (ty : List FlowBc.BcType) (value : List Rat) (x : Nat → Rat) (c i : Nat) : Rat :=
  match pressOf (condAt bcond ty value (face D.pconn D.conn c i)) with
  | some v => D.S c i i * (v - x (face D.pconn D.conn c i))
  | none => D.r c i - fluxOf (condAt bcond ty value (face D.pconn D.conn c i)) -
      ∑ j ∈ Finset.range (D.n c), D.S c i j * (pressOf (condAt bcond ty value (face D.pconn D.conn c j))).getD (x (face D.pconn D.conn c j))

theorem assembleGrid_ok (D : Data) {nc nf mx : Nat} (hD : D.Ok nc nf mx) {unsymm : Bool} (hu : unsymm = false → Symmetric nc D.pconn D.Binv) {bcond : List Int}
    {ty : List FlowBc.BcType} {value : List Rat} (hb : BcArr nf bcond ty value) {A : Csr} (hA : MatOk A)
    (hE : ∀ c i j, c < nc → i < deg D.pconn c → j < deg D.pconn c → HasElm A (face D.pconn D.conn c i) (face D.pconn D.conn c j))
    {s : Sys} (hs : Sized nc D.pconn mx s) (hF : unsymm = false → s.F2 = s.F1) (hh : Has D.pconn D.F1 D.F2 D.L nc s) {t : IfsTpfa.Sys} (ht : SysOk A t) :
    ∃ s' t', assembleGrid unsymm nc D.pconn D.conn D.gpress D.src D.Binv bcond ty value A s t = .ok (s', t') ∧ Sized nc D.pconn mx s' ∧ Has D.pconn D.F1 D.F2 D.L nc s' ∧
      (unsymm = false → s'.F2 = s'.F1) ∧ (∀ c, c < nc → s'.q.getD c 0 = D.q c) ∧ SysOk A t' ∧
      ∀ xr : XR, Res A t' xr = Res A t xr + ∑ c ∈ Finset.range nc, ∑ i ∈ Finset.range (D.n c),
        if xr.2 = face D.pconn D.conn c i then rowTerm D bcond ty value xr.1 c i else 0 := by
  unfold assembleGrid
  obtain ⟨⟨s', t'⟩, e, h1, h2, h3, h4, h5, h6⟩ := cells_inv (s := (s, t)) (f := fun c n p1 p2 (u : Sys × IfsTpfa.Sys) => do
    let s ← contrib unsymm c n p1 p2 D.gpress D.src D.Binv u.1
    let s ← imposeBc n D.conn p1 bcond ty value s
    let t ← assembleCell n D.conn p1 s.S s.r A u.2
    .ok (s, t)) hD.pos
    (fun m (u : Sys × IfsTpfa.Sys) => Sized nc D.pconn mx u.1 ∧ (unsymm = false → u.1.F2 = u.1.F1) ∧ Has D.pconn D.F1 D.F2 D.L nc u.1 ∧
      (∀ c, c < m → c < nc → u.1.q.getD c 0 = D.q c) ∧ SysOk A u.2 ∧
      ∀ xr : XR, Res A u.2 xr = Res A t xr + ∑ c ∈ Finset.range m, ∑ i ∈ Finset.range (D.n c),
        if xr.2 = face D.pconn D.conn c i then rowTerm D bcond ty value xr.1 c i else 0)
    ⟨hs, hF, hh, fun c hc => absurd hc (Nat.not_lt_zero _), ht, fun xr => by simp⟩ (by
    rintro c ⟨s, t⟩ hc ⟨h1, h2, h3, h4, h5, h6⟩
    simp only at h1 h2 h3 h4 h5 h6
    have hpl := pos_le hD.pos hc
    have hconn := hD.conn
    obtain ⟨S1, r1, e1, l1, l2, m1, v1⟩ := contrib_ok D hD hu h1 h2 h3 hc
    obtain ⟨S2, r2, e2, l3, l4, g', m2, v2⟩ := imposeBc_ok (s := { s with S := S1, r := r1, q := s.q.set c (D.q c) }) (n := deg D.pconn c) (conn := D.conn) (p1 := D.pconn.getD c 0) hb
      (fun i hi => ⟨by
        have : D.pconn.getD c 0 + i < D.conn.length := by omega
        generalize D.pconn.getD c 0 + i = m at this
        simp [this], hD.face c i hc hi⟩) m1 (by have := h1.r; have := hD.mx c hc; simp only; omega)
    obtain ⟨t2, e3, h7, h8⟩ := assembleCell_ok (conn := D.conn) (p1 := D.pconn.getD c 0) (r := r2) hA h5 (by omega) (fun i j hi hj => hE c i j hc hi hj) m2
      (by have := h1.r; have := hD.mx c hc; simp only at l4; omega)
    simp only at l3 l4
    refine ⟨({ s with S := S2, r := r2, q := s.q.set c (D.q c) }, t2), by rw [e1, bind_ok, e2, bind_ok, e3, bind_ok], ?_, h2, h3, ?_, h7, fun xr => ?_⟩
    · exact ⟨h1.L, by simpa using h1.q, h1.F1, h1.F2, h1.one, h1.ones, by have := h1.S; simp only; omega, by have := h1.r; simp only; omega⟩
    · intro d hd hd'
      simp only
      rw [getD_set (by rw [h1.q]; exact hc)]
      by_cases hdc : d = c
      · rw [if_pos hdc, hdc]
      · rw [if_neg hdc]; exact h4 d (by omega) hd'
    · rw [h8, h6, Finset.sum_range_succ, add_assoc]
      congr 2
      refine Finset.sum_congr rfl (fun i hi => ?_)
      have hi' := Finset.mem_range.1 hi
      show (if xr.2 = face D.pconn D.conn c i then _ else _) = _
      split
      · have := v2 (fun j => xr.1 (face D.pconn D.conn c j)) i hi'
        simp only at this
        rw [v1 i hi'] at this
        exact this
      · rfl)
  exact ⟨s', t', e, h1, h3, h2, fun c hc => h4 c hc hc, h5, h6⟩

theorem pressFlux_ok (D : Data) {nc nf mx : Nat} (hD : D.Ok nc nf mx) {s : Sys} (hs : Sized nc D.pconn mx s) (hh : Has D.pconn D.F1 D.F2 D.L nc s)
    (hq : ∀ c, c < nc → s.q.getD c 0 = D.q c) {pi : List Rat} (hpi : nf ≤ pi.length) {o : Out} (ho1 : o.press.length = nc) (ho2 : o.flux.length = D.pconn.getD nc 0)
    (ho3 : mx ≤ o.work.length) :
    ∃ o', pressFlux nc D.pconn D.conn D.gpress D.Binv s pi o = .ok o' ∧ o'.press.length = nc ∧ o'.flux.length = D.pconn.getD nc 0 ∧
      ∀ c, c < nc → o'.press.getD c 0 = D.p c (hfPress D.pconn D.conn pi c) ∧ ∀ i, i < deg D.pconn c → hf D.pconn o'.flux c i = D.v c (hfPress D.pconn D.conn pi c) i := by
  unfold pressFlux
  obtain ⟨o', e, h1, h2, h3, h4⟩ := cells_inv (s := o) (f := pressFluxCell D.conn D.gpress D.Binv s pi) hD.pos
    (fun m (o : Out) => o.press.length = nc ∧ o.flux.length = D.pconn.getD nc 0 ∧ mx ≤ o.work.length ∧
      ∀ c, c < m → c < nc → o.press.getD c 0 = D.p c (hfPress D.pconn D.conn pi c) ∧ ∀ i, i < deg D.pconn c → hf D.pconn o.flux c i = D.v c (hfPress D.pconn D.conn pi c) i)
    ⟨ho1, ho2, ho3, fun c hc => absurd hc (Nat.not_lt_zero _)⟩ (by
    rintro c ⟨pr, fl, wk⟩ hc ⟨h1, h2, h3, h4⟩
    simp only at h1 h2 h3 h4
    have hn := hD.mx c hc
    have hpl := pos_le hD.pos hc
    have ho := off2_le (pconn := D.pconn) hc
    have hBi := hD.Binv
    have hgl := hD.gpress
    have hcl := hD.conn
    obtain ⟨hhF, hhL⟩ := hh c hc
    have hLne : s.L.getD c 0 ≠ 0 := by rw [hhL]; exact hD.L c hc
    unfold pressFluxCell
    obtain ⟨w1, e1, u1⟩ := loop_upd (n := deg D.pconn c) (a := wk) (f := fun i w => do
      let f ← rd D.conn (D.pconn.getD c 0 + i)
      let x ← rd pi f
      wr w i x) 0 (hfPress D.pconn D.conn pi c) (by omega) (by
      intro i t hi ht _
      have hi' : D.pconn.getD c 0 + i < D.conn.length := by omega
      have hfc := hD.face c i hc hi
      unfold face at hfc
      rw [show rd D.conn (D.pconn.getD c 0 + i) = .ok (D.conn.getD (D.pconn.getD c 0 + i) 0) from rd_of_getElem? (by
        generalize D.pconn.getD c 0 + i = m at hi'
        simp [hi']), bind_ok, rdD (by omega), bind_ok, Nat.zero_add]
      rfl)
    have u1' : ∀ i, i < deg D.pconn c → w1.getD (0 + i) 0 = hfPress D.pconn D.conn pi c i := u1.2.1
    have hp : s.q.getD c 0 + ∑ i ∈ Finset.range (deg D.pconn c), s.F2.getD (D.pconn.getD c 0 + i) 0 * w1.getD (0 + i) 0 =
        D.q c + ∑ i ∈ Finset.range (D.n c), D.F2 c i * hfPress D.pconn D.conn pi c i := by
      rw [hq c hc]
      congr 1
      refine Finset.sum_congr rfl (fun i hi => ?_)
      rw [u1' i (Finset.mem_range.1 hi)]
      congr 1
      exact (hhF i (Finset.mem_range.1 hi)).2
    obtain ⟨w2, e2, u2⟩ := loop_upd (n := deg D.pconn c) (a := w1) (f := fun i w => do
      let g ← rd D.gpress (D.pconn.getD c 0 + i)
      let x ← rd w i
      wr w i (g + D.p c (hfPress D.pconn D.conn pi c) - x)) 0 (fun i => D.g c i + D.p c (hfPress D.pconn D.conn pi c) - hfPress D.pconn D.conn pi c i) (by rw [u1.1]; omega) (by
      intro i t hi ht hg
      rw [u1' i hi, Nat.zero_add] at hg
      rw [rdD (by omega), bind_ok, rdD (by rw [ht, u1.1]; omega), bind_ok, hg, Nat.zero_add]
      rfl)
    obtain ⟨fl', e3, u3⟩ := gemv_ok (n := deg D.pconn c) (alpha := 1) (beta := 0) (A := D.Binv) (x := w2) (y := fl) (oA := off2 D.pconn c) (ox := 0) (oy := D.pconn.getD c 0)
      (by omega) (by rw [u2.1, u1.1]; omega) (by omega)
    have hF2 := hs.F2
    refine ⟨⟨pr.set c (D.p c (hfPress D.pconn D.conn pi c)), fl', w2⟩, ?_, by simpa using h1, by simp only; rw [u3.1, h2], by simp only; rw [u2.1, u1.1]; exact h3, fun d hd hd' => ?_⟩
    · rw [e1, bind_ok, rdD (by rw [hs.q]; exact hc), bind_ok, dot_ok (by omega) (by rw [u1.1]; omega), bind_ok, rdD (by rw [hs.L]; exact hc), bind_ok, fdiv_ok hLne, bind_ok, hp, hhL]
      show (do
        let press ← wr pr c (D.p c (hfPress D.pconn D.conn pi c))
        _) = _
      rw [wr_ok (by omega), bind_ok]
      have := e2
      unfold Data.p at this
      erw [this]
      rw [bind_ok, e3, bind_ok]
    · simp only
      rw [getD_set (by omega)]
      obtain ⟨a3, b3⟩ := upd_hf hD.pos hc u3
      by_cases hdc : d = c
      · subst hdc
        refine ⟨if_pos rfl, fun i hi => ?_⟩
        rw [a3 i hi]
        rw [one_mul, zero_mul, add_zero]
        refine Finset.sum_congr rfl (fun j hj => ?_)
        rw [u2.2.1 j (Finset.mem_range.1 hj)]
        rfl
      · rw [if_neg hdc]
        obtain ⟨q1, q2⟩ := h4 d (by omega) hd'
        exact ⟨q1, fun i hi => by rw [b3 d hd' hdc i hi]; exact q2 i hi⟩)
  exact ⟨o', e, h1, h2, fun c hc => h4 c hc hc⟩

end Opm.Hybsys
