import Verif.Proofs.HybsysMain
import Mathlib.Tactic.LinearCombination
/-!
# Hybrid pressure systems: properties
-/

namespace Opm.Hybsys
open Opm Opm.MiscUtil Opm.SparseSys
open Opm.IfsTpfa (getD_set MatOk ElmAt HasElm SysOk XR Res BcOk HasCond rowDot getD_of_getElem? double_first)

section
variable {G : GridTopo} {bc : Option FlowBc.Bcs} {src Binv gpress : List Rat}

/-- Row sums of the inner products. -/
def rowF (G : GridTopo) (Binv : List Rat) (c i : Nat) : Rat := ∑ j ∈ Finset.range (deg G.cellFacepos c), ip G.cellFacepos Binv c i j

theorem sumL_pos (p : Problem G bc src Binv gpress) (hpd : PosDef G.nc G.cellFacepos Binv) {c : Nat} (hc : c < G.nc) :
    0 < ∑ i ∈ Finset.range (deg G.cellFacepos c), ∑ j ∈ Finset.range (deg G.cellFacepos c), ip G.cellFacepos Binv c i j := by
  have h2 := p.two c hc
  have := hpd c hc (fun _ => 1) ⟨0, by omega, one_ne_zero⟩
  simpa using this

theorem diag_pos (p : Problem G bc src Binv gpress) (hsym : Symmetric G.nc G.cellFacepos Binv) (hpd : PosDef G.nc G.cellFacepos Binv) {c i : Nat} (hc : c < G.nc) (hi : i < deg G.cellFacepos c) :
    0 < ip G.cellFacepos Binv c i i - rowF G Binv c i * rowF G Binv c i /
      ∑ i ∈ Finset.range (deg G.cellFacepos c), ∑ j ∈ Finset.range (deg G.cellFacepos c), ip G.cellFacepos Binv c i j := by
  have hL := sumL_pos p hpd hc
  have h2 := p.two c hc
  unfold rowF
  set n := deg G.cellFacepos c with hn
  set B : Nat → Nat → Rat := ip G.cellFacepos Binv c with hB
  set L : Rat := ∑ i ∈ Finset.range n, ∑ j ∈ Finset.range n, B i j with hLdef
  set F : Rat := ∑ j ∈ Finset.range n, B i j with hF
  have hFt : ∑ k ∈ Finset.range n, B k i = F := Finset.sum_congr rfl (fun k hk => hsym c k i hc (Finset.mem_range.1 hk) hi)
  have key := hpd c hc (fun k => (if k = i then 1 else 0) - F / L) (by
    by_cases h1 : (1 : Rat) - F / L = 0
    · obtain ⟨j, hj, hji⟩ : ∃ j, j < n ∧ j ≠ i := by
        by_cases h0 : i = 0
        · exact ⟨1, by omega, by omega⟩
        · exact ⟨0, by omega, by omega⟩
      refine ⟨j, hj, ?_⟩
      simp only [if_neg hji]
      intro h
      linarith
    · exact ⟨i, hi, by simpa using h1⟩)
  have e : ∑ a ∈ Finset.range n, ∑ b ∈ Finset.range n, ((if a = i then (1 : Rat) else 0) - F / L) * B a b * ((if b = i then 1 else 0) - F / L) =
      B i i - F * F / L := by
    have e1 : ∀ a, ∑ b ∈ Finset.range n, ((if a = i then (1 : Rat) else 0) - F / L) * B a b * ((if b = i then 1 else 0) - F / L) =
        ((if a = i then (1 : Rat) else 0) - F / L) * (B a i - F / L * ∑ b ∈ Finset.range n, B a b) := by
      intro a
      have : B a i = ∑ b ∈ Finset.range n, B a b * (if b = i then 1 else 0) := by
        simp [Finset.sum_ite_eq', hi]
      rw [this, Finset.mul_sum, ← Finset.sum_sub_distrib, Finset.mul_sum]
      exact Finset.sum_congr rfl (fun b _ => by ring)
    rw [Finset.sum_congr rfl (fun a _ => e1 a)]
    have e2 : ∀ u : Nat → Rat, ∑ a ∈ Finset.range n, ((if a = i then (1 : Rat) else 0) - F / L) * u a = u i - F / L * ∑ a ∈ Finset.range n, u a := by
      intro u
      have : u i = ∑ b ∈ Finset.range n, (if b = i then 1 else 0) * u b := by
        simp [Finset.sum_ite_eq', hi]
      rw [this, Finset.mul_sum, ← Finset.sum_sub_distrib]
      exact Finset.sum_congr rfl (fun b _ => by ring)
    rw [e2, Finset.sum_sub_distrib, ← Finset.mul_sum, hFt]
    change B i i - F / L * F - F / L * (F - F / L * L) = _
    field_simp
    ring
  have hkey : (∑ a ∈ Finset.range n, ∑ b ∈ Finset.range n, ((if a = i then (1 : Rat) else 0) - F / L) * B a b * ((if b = i then 1 else 0) - F / L)) > 0 := key
  rw [e] at hkey
  exact hkey

theorem nf_pos (p : Problem G bc src Binv gpress) : 0 < G.nf := by
  have h2 := p.two 0 p.nonempty
  have := (face_get p.valid p.first p.nonempty (i := 0) (by omega)).2
  omega

theorem zero_res {A : Csr} {t : IfsTpfa.Sys} (h : (∀ v ∈ t.sa, v = 0) ∧ ∀ v ∈ t.b, v = 0) (xr : XR) : Res A t xr = 0 := by
  have hz : ∀ (l : List Rat), (∀ v ∈ l, v = 0) → ∀ k, l.getD k 0 = 0 := by
    intro l hl k
    rw [List.getD_eq_getElem?_getD]
    cases hk : l[k]? with
    | none => rfl
    | some v => exact hl v (List.mem_of_getElem? hk)
  unfold Res rowDot
  rw [hz _ h.2, Finset.sum_eq_zero (fun k _ => by rw [hz _ h.1, zero_mul]), sub_zero]

theorem fluxOf_cond {co : Option (FlowBc.BcType × Rat)} {f : Nat} (h : ∀ ty v, co = some (ty, v) ↔ Cond bc ty v f) {φ : Nat → Rat} (hφ : Prescribed bc φ) : fluxOf co = φ f := by
  rcases hco : co with _ | ⟨ty, v⟩
  · rw [hco] at h
    exact ((hφ f).2 (fun v hv => by have := (h .fluxTotvol v).2 hv; cases this)).symm
  · cases ty with
    | fluxTotvol => exact ((hφ f).1 v ((h .fluxTotvol v).1 hco)).symm
    | pressure =>
      rw [hco] at h
      exact ((hφ f).2 (fun v hv => by have := (h .fluxTotvol v).2 hv; cases this)).symm
    | noflow =>
      rw [hco] at h
      exact ((hφ f).2 (fun v hv => by have := (h .fluxTotvol v).2 hv; cases this)).symm

theorem pressOf_cond {co : Option (FlowBc.BcType × Rat)} {f : Nat} (h : ∀ ty v, co = some (ty, v) ↔ Cond bc ty v f) (v : Rat) : pressOf co = some v ↔ Cond bc .pressure v f := by
  rw [← h]
  rcases hco : co with _ | ⟨ty, w⟩
  · simp [pressOf]
  · cases ty <;> simp [pressOf]

theorem pressOf_none {co : Option (FlowBc.BcType × Rat)} {f : Nat} (h : ∀ ty v, co = some (ty, v) ↔ Cond bc ty v f) : pressOf co = none ↔ ∀ v, ¬Cond bc .pressure v f := by
  constructor
  · intro hn v hv
    rw [(pressOf_cond h v).2 hv] at hn
    cases hn
  · intro hn
    cases hp : pressOf co with
    | none => rfl
    | some v => exact absurd ((pressOf_cond h v).1 hp) (hn v)

/-- A sum over the half faces of values of the faces that vanish inside. -/
theorem sum_half_faces (p : Problem G bc src Binv gpress) {φ : Nat → Rat} (h : ∀ f (a b : Nat), G.Sides f a b → φ f = 0) :
    ∑ c ∈ Finset.range G.nc, ∑ i ∈ Finset.range (deg G.cellFacepos c), φ (face G.cellFacepos G.cellFaces c i) = ∑ f ∈ Finset.range G.nf, φ f := by
  have e : ∀ f ∈ Finset.range G.nf, φ f = ∑ c ∈ Finset.range G.nc, 1 * hw G.cellFacepos G.cellFaces (fun c i => φ (face G.cellFacepos G.cellFaces c i)) c f := by
    intro f hf
    have hf' := Finset.mem_range.1 hf
    have key : ∀ c : Nat, c < G.nc → (∃ i, i < deg G.cellFacepos c ∧ face G.cellFacepos G.cellFaces c i = f) →
        hw G.cellFacepos G.cellFaces (fun c i => φ (face G.cellFacepos G.cellFaces c i)) c f = φ f := by
      rintro c hc ⟨i, hi, rfl⟩
      rw [hw_face p.valid p.first hc hi]
    rcases cases_sides p hf' with ⟨a, b, hs⟩ | ⟨a, hs⟩ | ⟨b, hs⟩
    · have hr := GridTopo.Valid.side_range p.valid hs
      rw [sum_inner p.valid p.first hs (fun _ => 1), key a (by omega) (half_of p.valid p.first (by omega) hs (Or.inl rfl)),
        key b (by omega) (half_of p.valid p.first (by omega) hs (Or.inr rfl)), h f a b hs]
      norm_num
    · have hr := GridTopo.Valid.side_range p.valid hs
      rw [sum_outer p.valid p.first hs (Or.inl ⟨rfl, rfl⟩) (fun _ => 1), key a (by omega) (half_of p.valid p.first (by omega) hs (Or.inl rfl)), one_mul]
    · have hr := GridTopo.Valid.side_range p.valid hs
      rw [sum_outer p.valid p.first hs (Or.inr ⟨rfl, rfl⟩) (fun _ => 1), key b (by omega) (half_of p.valid p.first (by omega) hs (Or.inr rfl)), one_mul]
  rw [Finset.sum_congr rfl e, Finset.sum_comm]
  refine Finset.sum_congr rfl (fun c hc => ?_)
  simp only [one_mul, hw]
  rw [Finset.sum_comm]
  refine Finset.sum_congr rfl (fun i hi => ?_)
  rw [Finset.sum_ite_eq' , if_pos (Finset.mem_range.2 (face_get p.valid p.first (Finset.mem_range.1 hc) (Finset.mem_range.1 hi)).2)]

theorem sum_rows_all (p : Problem G bc src Binv gpress) (R : Nat → Nat → Rat) :
    ∑ f ∈ Finset.range G.nf, (∑ c ∈ Finset.range G.nc, ∑ i ∈ Finset.range (deg G.cellFacepos c), if f = face G.cellFacepos G.cellFaces c i then R c i else 0) =
      ∑ c ∈ Finset.range G.nc, ∑ i ∈ Finset.range (deg G.cellFacepos c), R c i := by
  rw [Finset.sum_comm]
  refine Finset.sum_congr rfl (fun c hc => ?_)
  rw [Finset.sum_comm]
  refine Finset.sum_congr rfl (fun i hi => ?_)
  rw [Finset.sum_ite_eq', if_pos (Finset.mem_range.2 (face_get p.valid p.first (Finset.mem_range.1 hc) (Finset.mem_range.1 hi)).2)]

end

/-- What the fluxes and pressures of a solution satisfy: the law of Darcy in every cell, continuous fluxes that balance the sources, and the boundary conditions. -/
structure Solution (G : GridTopo) (bc : Option FlowBc.Bcs) (src Binv gpress x press q : List Rat) : Prop where
  darcy : ∀ c, c < G.nc → Darcy G.cellFacepos G.cellFaces Binv gpress x c (press.getD c 0) (outOf G (fun f => q.getD f 0) c)
  balance : ∀ c, c < G.nc → G.netOutflow (fun f => q.getD f 0) c = src.getD c 0
  pressure : ∀ f v, f < G.nf → Cond bc .pressure v f → x.getD f 0 = v
  flux : ∀ f v (c : Nat), Cond bc .fluxTotvol v f → (G.Sides f c (-1) → q.getD f 0 = v) ∧ (G.Sides f (-1) c → q.getD f 0 = -v)
  closed : ∀ f (c : Nat), (G.Sides f c (-1) ∨ G.Sides f (-1) c) → (∀ v, ¬Cond bc .pressure v f) → (∀ v, ¬Cond bc .fluxTotvol v f) → q.getD f 0 = 0

/-- **Hybrid pressure solver.**  For every valid mesh, symmetric positive definite inner products, boundary conditions and sources, the assembly succeeds, and every solution
of the assembled system gives face fluxes and cell pressures with the law of Darcy in every cell, balance of mass in every cell and the boundary conditions.  Prescribed fluxes
are positive out of the reservoir.  If no pressure is prescribed the sources have to match the prescribed fluxes; then the pressure of the first face is zero. -/
theorem hybrid_pressure {G : GridTopo} {bc : Option FlowBc.Bcs} {src Binv gpress : List Rat} (p : Problem G bc src Binv gpress) (hsym : Symmetric G.nc G.cellFacepos Binv)
    (hpd : PosDef G.nc G.cellFacepos Binv) {h : Fsh} (hfit : Fits G h) (halias : SameArray h) (hz : Zeroed h) {φ : Nat → Rat} (hφ : Prescribed bc φ)
    (hcompat : (∀ f v, f < G.nf → ¬Cond bc .pressure v f) → ∑ c ∈ Finset.range G.nc, src.getD c 0 = ∑ f ∈ Finset.range G.nf, φ f) :
    ∃ h', ifshAssemble G bc src Binv gpress h = .ok h' ∧ Fits G h' ∧ SameArray h' ∧ ∀ x cpress : List Rat, G.nf ≤ x.length → cpress.length = G.nc → SolvesFsh h' x →
      ∃ o q, fshPressFlux G Binv gpress h' x cpress = .ok (o, q) ∧ o.press.length = G.nc ∧ q.length = G.nf ∧ Solution G bc src Binv gpress x o.press q ∧
        ((∀ f v, f < G.nf → ¬Cond bc .pressure v f) → x.getD 0 0 = 0) := by
  have hnf := nf_pos p
  have hp := p.valid.rowPos p.first
  obtain ⟨mx, hmx, hpat, hsz, hsys, hwk⟩ := hfit.facts p.valid p.first hnf
  obtain ⟨m, em, lm, vm⟩ := mapBdry_ok p.valid p.bc
  have hci := fun f (hf : f < G.nf) => cond_iff (f := f) p.bc (vm f hf)
  have hba := bcArr_of p.bc lm vm
  obtain ⟨s1, e1, hs1, hal1, hh1⟩ := schurSymm_ok hp hmx p.Binv hsz halias
  let D : Data := meshData G Binv gpress src (rowF G Binv) (rowF G Binv) (fun c => ∑ i ∈ Finset.range (deg G.cellFacepos c), ∑ j ∈ Finset.range (deg G.cellFacepos c), ip G.cellFacepos Binv c i j)
  have hD : D.Ok G.nc G.nf mx :=
    { pos := hp, mx := hmx, Binv := p.Binv, conn := by
        have := Graph.ia_bound p.valid.csr (i := G.nc) (le_refl _)
        exact this
      face := fun c i hc hi => (face_get p.valid p.first hc hi).2, gpress := p.gpress, src := p.src, L := fun c hc => ne_of_gt (sumL_pos p hpd hc) }
  obtain ⟨s2, t2, e2, hs2, hh2, hal2, hq2, ht2, hres⟩ := assembleGrid_ok D hD (unsymm := false) (fun _ => hsym) hba hpat.mat
    (fun c i j hc hi hj => hpat.elms p.valid p.first hc hi hj) hs1 (fun _ => hal1) hh1 hsys
  obtain ⟨npp, en, hnpp⟩ := numPressure_ok p.valid p.first hba
  have hnpp' : npp = 0 ↔ ∀ f v, f < G.nf → ¬Cond bc .pressure v f := by
    rw [hnpp]
    constructor
    · intro hall f v hf hcnd
      rcases cases_sides p hf with ⟨a, b, hs⟩ | ⟨a, hs⟩ | ⟨b, hs⟩
      · exact no_cond_inside p hs _ _ hcnd
      · have hr := GridTopo.Valid.side_range p.valid hs
        obtain ⟨i, hi, rfl⟩ := half_of p.valid p.first (c := a) (by omega) hs (Or.inl rfl)
        exact (pressOf_none (hci _ hf)).1 (hall a i (by omega) hi) v hcnd
      · have hr := GridTopo.Valid.side_range p.valid hs
        obtain ⟨i, hi, rfl⟩ := half_of p.valid p.first (c := b) (by omega) hs (Or.inr rfl)
        exact (pressOf_none (hci _ hf)).1 (hall b i (by omega) hi) v hcnd
    · intro hall c i hc hi
      have hf := (face_get p.valid p.first hc hi).2
      exact (pressOf_none (hci _ hf)).2 (fun v => hall _ v hf)
  have hres' : ∀ x f, Res h.A t2 (x, f) = ∑ c ∈ Finset.range G.nc, ∑ i ∈ Finset.range (deg G.cellFacepos c),
      if f = face G.cellFacepos G.cellFaces c i then rowTerm D m (bcTypes bc) (bcValues bc) x c i else 0 := by
    intro x f
    rw [hres (x, f), zero_res hz, zero_add]
    rfl
  have hnz : 0 < t2.sa.length := by
    rw [ht2.1, ← hpat.mat.nnz]
    have := hpat.mat.pos.mono' (c := 1) (d := h.A.m) (by rw [hpat.m]; omega) (le_refl _)
    have := (hpat.first hnf (count_first p.valid p.first hnf)).1
    omega
  obtain ⟨sa, esa, lsa, hsa⟩ : ∃ sa, doubleFirst npp t2.sa = .ok sa ∧ sa.length = t2.sa.length ∧ sa = if npp = 0 then t2.sa.set 0 (t2.sa.getD 0 0 * 2) else t2.sa := by
    unfold doubleFirst
    by_cases hn : npp = 0
    · rw [if_pos hn, rdD hnz, bind_ok, wr_ok hnz]
      exact ⟨_, rfl, by simp, by rw [if_pos hn]⟩
    · rw [if_neg hn]
      exact ⟨_, rfl, rfl, by rw [if_neg hn]⟩
  have hasm : ifshAssemble G bc src Binv gpress h = .ok { h with sys := s2, lin := { sa := sa, b := t2.b } } := by
    unfold ifshAssemble
    have e2' : assembleGrid false G.nc G.cellFacepos G.cellFaces gpress src Binv m (bcTypes bc) (bcValues bc) h.A s1 h.lin = .ok (s2, t2) := e2
    rw [em, bind_ok, e1, bind_ok, e2', bind_ok, en, bind_ok, esa, bind_ok]
  refine ⟨_, hasm, hfit.of hmx hs2 (t := { sa := sa, b := t2.b }) ⟨by rw [← ht2.1]; exact lsa, ht2.2⟩ hwk, hal2 rfl, ?_⟩
  intro x cpress hx hcp hsol
  let X : Nat → Rat := fun k => x.getD k 0
  have hAm : h.A.m = G.nf := hpat.m
  have hsol' : ∀ f, f < G.nf → Res h.A ⟨sa, t2.b⟩ (X, f) = 0 := by
    intro f hf
    have hs := hsol f (by show f < h.A.m; rw [hAm]; exact hf)
    show t2.b.getD f 0 - rowDot h.A sa X f = 0
    rw [sub_eq_zero]
    exact hs.symm
  have hF : ∀ c i, c < G.nc → i < deg G.cellFacepos c → rowF G Binv c i = ∑ j ∈ Finset.range (deg G.cellFacepos c), ip G.cellFacepos Binv c i j := fun _ _ _ _ => rfl
  have hSpos : ∀ c i, c < G.nc → i < deg G.cellFacepos c → 0 < D.S c i i := fun c i hc hi => diag_pos p hsym hpd hc hi
  let v : Nat → Nat → Rat := fun c => D.v c (fun j => X (face G.cellFacepos G.cellFaces c j))
  have hbal : ∀ c, c < G.nc → ∑ i ∈ Finset.range (deg G.cellFacepos c), v c i = src.getD c 0 := by
    intro c hc
    have hb := D.balance (c := c) (w := fun _ => 1) (P := 0) (fun j hj => by
      show rowF G Binv c j = _
      unfold rowF
      refine Finset.sum_congr rfl (fun i hi => ?_)
      rw [one_mul]
      exact hsym c j i hc hj (Finset.mem_range.1 hi)) (by rw [sub_zero]; rfl) (hD.L c hc) (fun j => X (face G.cellFacepos G.cellFaces c j))
    simp only [one_mul, zero_mul, sub_zero] at hb
    exact hb
  have hin : ∀ f (a b : Nat), G.Sides f a b → condAt m (bcTypes bc) (bcValues bc) f = none := by
    intro f a b hs
    cases hco : condAt m (bcTypes bc) (bcValues bc) f with
    | none => rfl
    | some u => exact absurd ((hci f (GridTopo.Sides.lt p.valid hs) u.1 u.2).1 hco) (no_cond_inside p hs _ _)
  -- the equations of the faces hold, and the pressure of face 0 vanishes if none is prescribed
  have hmain : (∀ f, f < G.nf → Res h.A t2 (X, f) = 0) ∧ (npp = 0 → X 0 = 0) := by
    by_cases hn : npp = 0
    · have hno := hnpp'.1 hn
      have hsa' : sa = t2.sa.set 0 (t2.sa.getD 0 0 * 2) := by rw [hsa, if_pos hn]
      have helm := hpat.first_elm hnf (count_first p.valid p.first hnf)
      have hd : ∀ f, f < G.nf → Res h.A t2 (X, f) = if f = 0 then t2.sa.getD 0 0 * X 0 else 0 := by
        intro f hf
        have h1 := hsol' f hf
        rw [hsa', double_first hpat.mat helm ht2] at h1
        linarith
      have hterm := fun y => term_eq (co := fun f => condAt m (bcTypes bc) (bcValues bc) f) (x := y) (F1 := rowF G Binv) (F2 := rowF G Binv) (L := D.L) p (fun _ => rfl) hF
        (fun f hf w hw => absurd ((pressOf_cond (hci f hf) w).1 hw) (hno f w hf))
      have hpn : ∀ c i, c < G.nc → i < deg G.cellFacepos c → pressOf (condAt m (bcTypes bc) (bcValues bc) (face G.cellFacepos G.cellFaces c i)) = none := hnpp.1 hn
      have hsum : ∑ f ∈ Finset.range G.nf, Res h.A t2 (X, f) = 0 := by
        rw [Finset.sum_congr rfl (fun f _ => hres' X f), sum_rows_all p]
        have e : ∀ c ∈ Finset.range G.nc, ∑ i ∈ Finset.range (deg G.cellFacepos c), rowTerm D m (bcTypes bc) (bcValues bc) X c i =
            src.getD c 0 - ∑ i ∈ Finset.range (deg G.cellFacepos c), φ (face G.cellFacepos G.cellFaces c i) := by
          intro c hc
          have hc' := Finset.mem_range.1 hc
          rw [← hbal c hc', ← Finset.sum_sub_distrib]
          refine Finset.sum_congr rfl (fun i hi => ?_)
          have hi' := Finset.mem_range.1 hi
          have ht := hterm X c i hc' hi' (hpn c i hc' hi')
          rw [fluxOf_cond (hci _ (face_get p.valid p.first hc' hi').2) hφ] at ht
          exact ht
        rw [Finset.sum_congr rfl e, Finset.sum_sub_distrib, hcompat hno, sum_half_faces p, sub_self]
        intro f a b hs
        exact (hφ f).2 (fun w hw => no_cond_inside p hs _ _ hw)
      have hsum2 : ∑ f ∈ Finset.range G.nf, Res h.A t2 (X, f) = t2.sa.getD 0 0 * X 0 := by
        rw [Finset.sum_congr rfl (fun f hf => hd f (Finset.mem_range.1 hf)), Finset.sum_ite_eq', if_pos (Finset.mem_range.2 hnf)]
      have hpos : 0 < t2.sa.getD 0 0 := by
        have hdel := hpat.rowDot_delta hnf (count_first p.valid p.first hnf) t2.sa
        have h0 := hres' (fun _ => 0) 0
        have h1 := hres' (fun k => if k = 0 then 1 else 0) 0
        have hz0 : rowDot h.A t2.sa (fun _ => 0) 0 = 0 := by
          unfold rowDot
          exact Finset.sum_eq_zero (fun k _ => mul_zero _)
        have hdiff : t2.sa.getD 0 0 = ∑ c ∈ Finset.range G.nc, ∑ i ∈ Finset.range (deg G.cellFacepos c),
            if 0 = face G.cellFacepos G.cellFaces c i then D.S c i i else 0 := by
          have hA : t2.sa.getD 0 0 = Res h.A t2 ((fun _ => 0), 0) - Res h.A t2 ((fun k => if k = 0 then 1 else 0), 0) := by
            unfold Res
            simp only
            rw [hz0, hdel]
            ring
          rw [hA, h0, h1, ← Finset.sum_sub_distrib]
          refine Finset.sum_congr rfl (fun c hc => ?_)
          rw [← Finset.sum_sub_distrib]
          refine Finset.sum_congr rfl (fun i hi => ?_)
          have hc' := Finset.mem_range.1 hc
          have hi' := Finset.mem_range.1 hi
          split
          · next hf0 =>
            have ha := hterm (fun _ => 0) c i hc' hi' (hpn c i hc' hi')
            have hb := hterm (fun k => if k = 0 then 1 else 0) c i hc' hi' (hpn c i hc' hi')
            simp only at ha hb
            have ha' : rowTerm D m (bcTypes bc) (bcValues bc) (fun _ => 0) c i = _ := ha
            have hb' : rowTerm D m (bcTypes bc) (bcValues bc) (fun k => if k = 0 then 1 else 0) c i = _ := hb
            rw [ha', hb', Data.v_eq (meshData G Binv gpress src (rowF G Binv) (rowF G Binv) D.L) c (fun i hi => hF c i hc' (show i < deg G.cellFacepos c from hi)) _ hi', Data.v_eq (meshData G Binv gpress src (rowF G Binv) (rowF G Binv) D.L) c (fun i hi => hF c i hc' (show i < deg G.cellFacepos c from hi)) _ hi']
            have e : ∑ j ∈ Finset.range (D.n c), D.S c i j * (if face G.cellFacepos G.cellFaces c j = 0 then 1 else 0) = D.S c i i := by
              rw [Finset.sum_eq_single i, if_pos hf0.symm, mul_one]
              · intro j hj hji
                rw [if_neg, mul_zero]
                intro hj0
                exact hji (face_inj p.valid p.first hc' (Finset.mem_range.1 hj) hi' (hj0.trans hf0))
              · intro hni
                exact absurd (Finset.mem_range.2 hi') hni
            have e0 : ∑ j ∈ Finset.range (D.n c), D.S c i j * 0 = 0 := Finset.sum_eq_zero (fun k _ => mul_zero _)
            have e' : ∑ j ∈ Finset.range ((meshData G Binv gpress src (rowF G Binv) (rowF G Binv) D.L).n c),
              (meshData G Binv gpress src (rowF G Binv) (rowF G Binv) D.L).S c i j * (if face G.cellFacepos G.cellFaces c j = 0 then 1 else 0) = D.S c i i := e
            have e0' : ∑ j ∈ Finset.range ((meshData G Binv gpress src (rowF G Binv) (rowF G Binv) D.L).n c),
              (meshData G Binv gpress src (rowF G Binv) (rowF G Binv) D.L).S c i j * 0 = 0 := e0
            rw [e', e0']
            ring
          · rw [sub_zero]
        rw [hdiff]
        have hnn : ∀ c ∈ Finset.range G.nc, 0 ≤ ∑ i ∈ Finset.range (deg G.cellFacepos c), if 0 = face G.cellFacepos G.cellFaces c i then D.S c i i else 0 := by
          intro c hc
          refine Finset.sum_nonneg (fun i hi => ?_)
          split
          · exact le_of_lt (hSpos c i (Finset.mem_range.1 hc) (Finset.mem_range.1 hi))
          · exact le_refl _
        obtain ⟨c, i, hc, hi, hci0⟩ : ∃ c i, c < G.nc ∧ i < deg G.cellFacepos c ∧ face G.cellFacepos G.cellFaces c i = 0 := by
          rcases cases_sides p hnf with ⟨a, b, hs⟩ | ⟨a, hs⟩ | ⟨b, hs⟩
          · have hr := GridTopo.Valid.side_range p.valid hs
            obtain ⟨i, hi, he⟩ := half_of p.valid p.first (c := a) (by omega) hs (Or.inl rfl)
            exact ⟨a, i, by omega, hi, he⟩
          · have hr := GridTopo.Valid.side_range p.valid hs
            obtain ⟨i, hi, he⟩ := half_of p.valid p.first (c := a) (by omega) hs (Or.inl rfl)
            exact ⟨a, i, by omega, hi, he⟩
          · have hr := GridTopo.Valid.side_range p.valid hs
            obtain ⟨i, hi, he⟩ := half_of p.valid p.first (c := b) (by omega) hs (Or.inr rfl)
            exact ⟨b, i, by omega, hi, he⟩
        refine Finset.sum_pos' hnn ⟨c, Finset.mem_range.2 hc, ?_⟩
        refine Finset.sum_pos' (fun j hj => ?_) ⟨i, Finset.mem_range.2 hi, ?_⟩
        · split
          · exact le_of_lt (hSpos c j hc (Finset.mem_range.1 hj))
          · exact le_refl _
        · rw [if_pos hci0.symm]
          exact hSpos c i hc hi
      have hx0 : X 0 = 0 := by
        rw [hsum] at hsum2
        rcases mul_eq_zero.1 hsum2.symm with h | h
        · exact absurd h (ne_of_gt hpos)
        · exact h
      refine ⟨fun f hf => ?_, fun _ => hx0⟩
      rw [hd f hf, hx0, mul_zero]
      simp
    · refine ⟨fun f hf => ?_, fun h => absurd h hn⟩
      have h1 := hsol' f hf
      rw [hsa, if_neg hn] at h1
      exact h1
  obtain ⟨hR, hx0⟩ := hmain
  have hR' := fun f hf => (hres' X f).symm.trans (hR f hf)
  obtain ⟨hpr, hterm⟩ := solve_core (co := fun f => condAt m (bcTypes bc) (bcValues bc) f) (x := X) (F1 := rowF G Binv) (F2 := rowF G Binv) (L := D.L) p (fun _ => rfl) hin hF
    (fun c i hc hi => ne_of_gt (hSpos c i hc hi)) hR'
  obtain ⟨hcont, hbd⟩ := solve_flux (co := fun f => condAt m (bcTypes bc) (bcValues bc) f) (v := v) p hin hterm hR'
  obtain ⟨o, eo, lo1, lo2, ho⟩ := pressFlux_ok D hD hs2 hh2 hq2 (pi := x) hx (o := { press := cpress, flux := h.cflux, work := h.work }) hcp hfit.cflux hwk
  obtain ⟨q, eq, lq, q1, q2, q3⟩ := faceFlux_ok p.valid p.first p.sides (cflux := o.flux) (by rw [lo2]; exact le_refl _)
  have hov : ∀ c i, c < G.nc → i < deg G.cellFacepos c → hf G.cellFacepos o.flux c i = v c i := fun c i hc hi => (ho c hc).2 i hi
  have hwv : ∀ c f, c < G.nc → hw G.cellFacepos G.cellFaces (hf G.cellFacepos o.flux) c f = hw G.cellFacepos G.cellFaces v c f := by
    intro c f hc
    unfold hw
    exact Finset.sum_congr rfl (fun i hi => by rw [hov c i hc (Finset.mem_range.1 hi)])
  have q1' : ∀ f (a b : Nat), G.Sides f a b → q.getD f 0 = (hw G.cellFacepos G.cellFaces v a f - hw G.cellFacepos G.cellFaces v b f) / 2 := by
    intro f a b hs
    have hr := GridTopo.Valid.side_range p.valid hs
    rw [q1 f a b hs, hwv a f (by omega), hwv b f (by omega)]
  have q2' : ∀ f (a : Nat), G.Sides f a (-1) → q.getD f 0 = hw G.cellFacepos G.cellFaces v a f := by
    intro f a hs
    have hr := GridTopo.Valid.side_range p.valid hs
    rw [q2 f a hs, hwv a f (by omega)]
  have q3' : ∀ f (b : Nat), G.Sides f (-1) b → q.getD f 0 = -hw G.cellFacepos G.cellFaces v b f := by
    intro f b hs
    have hr := GridTopo.Valid.side_range p.valid hs
    rw [q3 f b hs, hwv b f (by omega)]
  refine ⟨o, q, ?_, lo1, lq, ?_, fun hno => hx0 (hnpp'.2 hno)⟩
  · unfold fshPressFlux
    have eo' : pressFlux G.nc G.cellFacepos G.cellFaces gpress Binv s2 x { press := cpress, flux := h.cflux, work := h.work } = .ok o := eo
    simp only
    rw [eo', bind_ok, eq, bind_ok]
  · refine ⟨fun c hc => ?_, fun c hc => ?_, fun f w hf hw => ?_, fun f w c hcnd => ?_, fun f c hs hn1 hn2 => ?_⟩
    · intro i hi
      rw [outOf_eq p q1' q2' q3' hcont hc hi, (ho c hc).1]
      rfl
    · rw [netOutflow_eq p.valid p.first p.sides q1' q2' q3' hcont hc, hbal c hc]
    · exact hpr f hf w ((pressOf_cond (hci f hf) w).2 hw)
    · have key : f < G.nf → condAt m (bcTypes bc) (bcValues bc) f = some (.fluxTotvol, w) := fun hf => (hci f hf _ _).2 hcnd
      constructor
      · intro hs
        have hk := key (GridTopo.Sides.lt p.valid hs)
        have := hbd f c (Or.inl hs) (by rw [hk]; rfl)
        simp only [hk, fluxOf] at this
        rw [q2' f c hs, this]
      · intro hs
        have hk := key (GridTopo.Sides.lt p.valid hs)
        have := hbd f c (Or.inr hs) (by rw [hk]; rfl)
        simp only [hk, fluxOf] at this
        rw [q3' f c hs, this]
    · have hf : f < G.nf := by
        rcases hs with hs | hs
        · exact GridTopo.Sides.lt p.valid hs
        · exact GridTopo.Sides.lt p.valid hs
      have hb := hbd f c hs ((pressOf_none (hci f hf)).2 hn1)
      have hzero : fluxOf (condAt m (bcTypes bc) (bcValues bc) f) = 0 := by
        rw [fluxOf_cond (hci f hf) hφ]
        exact (hφ f).2 hn2
      simp only [hzero] at hb
      rcases hs with hs | hs
      · rw [q2' f c hs, hb]
      · rw [q3' f c hs, hb, neg_zero]


/-- The blocks of the compressible problem are regular: with `V` the weights of the half faces, `L = Σ B (1 - V) - P` and the diagonal of `B - F1 F2ᵀ / L` do not vanish. -/
def Regular (G : GridTopo) (Binv Biv P : List Rat) : Prop :=
  ∀ c, c < G.nc → (∑ i ∈ Finset.range (deg G.cellFacepos c), (∑ j ∈ Finset.range (deg G.cellFacepos c), ip G.cellFacepos Binv c i j - hf G.cellFacepos Biv c i) - P.getD c 0 ≠ 0) ∧
    ∀ i, i < deg G.cellFacepos c → ip G.cellFacepos Binv c i i - (∑ j ∈ Finset.range (deg G.cellFacepos c), ip G.cellFacepos Binv c i j) *
      (∑ j ∈ Finset.range (deg G.cellFacepos c), ip G.cellFacepos Binv c i j - hf G.cellFacepos Biv c i) /
        (∑ i ∈ Finset.range (deg G.cellFacepos c), (∑ j ∈ Finset.range (deg G.cellFacepos c), ip G.cellFacepos Binv c i j - hf G.cellFacepos Biv c i) - P.getD c 0) ≠ 0

/-- **Compressible hybrid pressure solver.**  If a pressure is prescribed somewhere, every solution of the assembled system gives fluxes and pressures with the law of Darcy, continuity
(the fluxes are single valued), the balance `Σ (1 - V) v - P p = src` in every cell and the boundary conditions. -/
theorem compressible_hybrid_pressure_partial {G : GridTopo} {bc : Option FlowBc.Bcs} {src Binv gpress Biv P : List Rat} {V : Nat → Nat → Rat} (p : Problem G bc src Binv gpress)
    (hsym : Symmetric G.nc G.cellFacepos Binv) (lB : G.cellFacepos.getD G.nc 0 ≤ Biv.length) (lP : G.nc ≤ P.length)
    (hV : ∀ c i, c < G.nc → i < deg G.cellFacepos c → hf G.cellFacepos Biv c i = ∑ j ∈ Finset.range (deg G.cellFacepos c), ip G.cellFacepos Binv c i j * V c j)
    (hreg : Regular G Binv Biv P) {h : Fsh} (hfit : Fits G h) (hz : Zeroed h) (hpress : ∃ f v, f < G.nf ∧ Cond bc .pressure v f) :
    ∃ h', cfshAssemble G bc src Binv Biv P gpress h = .ok h' ∧ Fits G h' ∧ ∀ x cpress : List Rat, G.nf ≤ x.length → cpress.length = G.nc → SolvesFsh h' x →
      ∃ o q, fshPressFlux G Binv gpress h' x cpress = .ok (o, q) ∧ o.press.length = G.nc ∧ q.length = G.nf ∧
        (∀ c, c < G.nc → Darcy G.cellFacepos G.cellFaces Binv gpress x c (o.press.getD c 0) (outOf G (fun f => q.getD f 0) c)) ∧
        (∀ c, c < G.nc → ∑ i ∈ Finset.range (deg G.cellFacepos c), (1 - V c i) * outOf G (fun f => q.getD f 0) c i - P.getD c 0 * o.press.getD c 0 = src.getD c 0) ∧
        (∀ f v, f < G.nf → Cond bc .pressure v f → x.getD f 0 = v) ∧
        (∀ f v (c : Nat), Cond bc .fluxTotvol v f → (G.Sides f c (-1) → q.getD f 0 = v) ∧ (G.Sides f (-1) c → q.getD f 0 = -v)) ∧
        ∀ f (c : Nat), (G.Sides f c (-1) ∨ G.Sides f (-1) c) → (∀ v, ¬Cond bc .pressure v f) → (∀ v, ¬Cond bc .fluxTotvol v f) → q.getD f 0 = 0 := by
  have hnf := nf_pos p
  have hp := p.valid.rowPos p.first
  obtain ⟨mx, hmx, hpat, hsz, hsys, hwk⟩ := hfit.facts p.valid p.first hnf
  obtain ⟨m, em, lm, vm⟩ := mapBdry_ok p.valid p.bc
  have hci := fun f (hf : f < G.nf) => cond_iff (f := f) p.bc (vm f hf)
  have hba := bcArr_of p.bc lm vm
  obtain ⟨s1, e1, hs1, hh1⟩ := schurUnsymm_ok hp hmx p.Binv lB lP hsz
  let F2 : Nat → Nat → Rat := fun c i => ∑ j ∈ Finset.range (deg G.cellFacepos c), ip G.cellFacepos Binv c i j - hf G.cellFacepos Biv c i
  let D : Data := meshData G Binv gpress src (rowF G Binv) F2 (fun c => ∑ i ∈ Finset.range (deg G.cellFacepos c), (∑ j ∈ Finset.range (deg G.cellFacepos c), ip G.cellFacepos Binv c i j - hf G.cellFacepos Biv c i) - P.getD c 0)
  have hD : D.Ok G.nc G.nf mx :=
    { pos := hp, mx := hmx, Binv := p.Binv, conn := by
        have := Graph.ia_bound p.valid.csr (i := G.nc) (le_refl _)
        exact this
      face := fun c i hc hi => (face_get p.valid p.first hc hi).2, gpress := p.gpress, src := p.src, L := fun c hc => (hreg c hc).1 }
  obtain ⟨s2, t2, e2, hs2, hh2, _, hq2, ht2, hres⟩ := assembleGrid_ok D hD (unsymm := true) (fun h => by cases h) hba hpat.mat
    (fun c i j hc hi hj => hpat.elms p.valid p.first hc hi hj) hs1 (fun h => by cases h) hh1 hsys
  obtain ⟨npp, en, hnpp⟩ := numPressure_ok p.valid p.first hba
  have hn : npp ≠ 0 := by
    obtain ⟨f, v, hf, hcnd⟩ := hpress
    rw [Ne, hnpp]
    intro hall
    rcases cases_sides p hf with ⟨a, b, hs⟩ | ⟨a, hs⟩ | ⟨b, hs⟩
    · exact no_cond_inside p hs _ _ hcnd
    · have hr := GridTopo.Valid.side_range p.valid hs
      obtain ⟨i, hi, rfl⟩ := half_of p.valid p.first (c := a) (by omega) hs (Or.inl rfl)
      exact (pressOf_none (hci _ hf)).1 (hall a i (by omega) hi) v hcnd
    · have hr := GridTopo.Valid.side_range p.valid hs
      obtain ⟨i, hi, rfl⟩ := half_of p.valid p.first (c := b) (by omega) hs (Or.inr rfl)
      exact (pressOf_none (hci _ hf)).1 (hall b i (by omega) hi) v hcnd
  have hres' : ∀ x f, Res h.A t2 (x, f) = ∑ c ∈ Finset.range G.nc, ∑ i ∈ Finset.range (deg G.cellFacepos c),
      if f = face G.cellFacepos G.cellFaces c i then rowTerm D m (bcTypes bc) (bcValues bc) x c i else 0 := by
    intro x f
    rw [hres (x, f), zero_res hz, zero_add]
    rfl
  have hasm : cfshAssemble G bc src Binv Biv P gpress h = .ok { h with sys := s2, lin := t2 } := by
    unfold cfshAssemble
    have e2' : assembleGrid true G.nc G.cellFacepos G.cellFaces gpress src Binv m (bcTypes bc) (bcValues bc) h.A s1 h.lin = .ok (s2, t2) := e2
    have ed : doubleFirst npp t2.sa = .ok t2.sa := by
      unfold doubleFirst
      rw [if_neg hn]
    rw [e1, bind_ok, em, bind_ok]
    simp only
    rw [e2', bind_ok, en, bind_ok, ed, bind_ok]
  refine ⟨_, hasm, hfit.of hmx hs2 ht2 hwk, ?_⟩
  intro x cpress hx hcp hsol
  let X : Nat → Rat := fun k => x.getD k 0
  have hAm : h.A.m = G.nf := hpat.m
  have hR : ∀ f, f < G.nf → Res h.A t2 (X, f) = 0 := by
    intro f hf
    have hs := hsol f (by show f < h.A.m; rw [hAm]; exact hf)
    show t2.b.getD f 0 - rowDot h.A t2.sa X f = 0
    rw [sub_eq_zero]
    exact hs.symm
  have hF : ∀ c i, c < G.nc → i < deg G.cellFacepos c → rowF G Binv c i = ∑ j ∈ Finset.range (deg G.cellFacepos c), ip G.cellFacepos Binv c i j := fun _ _ _ _ => rfl
  let v : Nat → Nat → Rat := fun c => D.v c (fun j => X (face G.cellFacepos G.cellFaces c j))
  have hbal : ∀ c, c < G.nc → ∑ i ∈ Finset.range (deg G.cellFacepos c), (1 - V c i) * v c i - P.getD c 0 * D.p c (fun j => X (face G.cellFacepos G.cellFaces c j)) = src.getD c 0 := by
    intro c hc
    exact D.balance (c := c) (w := fun i => 1 - V c i) (P := P.getD c 0) (fun j hj => by
      show ∑ k ∈ Finset.range (deg G.cellFacepos c), ip G.cellFacepos Binv c j k - hf G.cellFacepos Biv c j = ∑ i ∈ Finset.range (deg G.cellFacepos c), (1 - V c i) * ip G.cellFacepos Binv c i j
      rw [hV c j hc hj, ← Finset.sum_sub_distrib]
      refine Finset.sum_congr rfl (fun i hi => ?_)
      rw [hsym c j i hc hj (Finset.mem_range.1 hi)]
      ring) rfl (hD.L c hc) (fun j => X (face G.cellFacepos G.cellFaces c j))
  have hin : ∀ f (a b : Nat), G.Sides f a b → condAt m (bcTypes bc) (bcValues bc) f = none := by
    intro f a b hs
    cases hco : condAt m (bcTypes bc) (bcValues bc) f with
    | none => rfl
    | some u => exact absurd ((hci f (GridTopo.Sides.lt p.valid hs) u.1 u.2).1 hco) (no_cond_inside p hs _ _)
  have hR' := fun f hf => (hres' X f).symm.trans (hR f hf)
  obtain ⟨hpr, hterm⟩ := solve_core (co := fun f => condAt m (bcTypes bc) (bcValues bc) f) (x := X) (F1 := rowF G Binv) (F2 := F2) (L := D.L) p (fun _ => rfl) hin hF
    (fun c i hc hi => (hreg c hc).2 i hi) hR'
  obtain ⟨hcont, hbd⟩ := solve_flux (co := fun f => condAt m (bcTypes bc) (bcValues bc) f) (v := v) p hin hterm hR'
  obtain ⟨o, eo, lo1, lo2, ho⟩ := pressFlux_ok D hD hs2 hh2 hq2 (pi := x) hx (o := { press := cpress, flux := h.cflux, work := h.work }) hcp hfit.cflux hwk
  obtain ⟨q, eq, lq, q1, q2, q3⟩ := faceFlux_ok p.valid p.first p.sides (cflux := o.flux) (by rw [lo2]; exact le_refl _)
  have hov : ∀ c i, c < G.nc → i < deg G.cellFacepos c → hf G.cellFacepos o.flux c i = v c i := fun c i hc hi => (ho c hc).2 i hi
  have hwv : ∀ c f, c < G.nc → hw G.cellFacepos G.cellFaces (hf G.cellFacepos o.flux) c f = hw G.cellFacepos G.cellFaces v c f := by
    intro c f hc
    unfold hw
    exact Finset.sum_congr rfl (fun i hi => by rw [hov c i hc (Finset.mem_range.1 hi)])
  have q1' : ∀ f (a b : Nat), G.Sides f a b → q.getD f 0 = (hw G.cellFacepos G.cellFaces v a f - hw G.cellFacepos G.cellFaces v b f) / 2 := by
    intro f a b hs
    have hr := GridTopo.Valid.side_range p.valid hs
    rw [q1 f a b hs, hwv a f (by omega), hwv b f (by omega)]
  have q2' : ∀ f (a : Nat), G.Sides f a (-1) → q.getD f 0 = hw G.cellFacepos G.cellFaces v a f := by
    intro f a hs
    have hr := GridTopo.Valid.side_range p.valid hs
    rw [q2 f a hs, hwv a f (by omega)]
  have q3' : ∀ f (b : Nat), G.Sides f (-1) b → q.getD f 0 = -hw G.cellFacepos G.cellFaces v b f := by
    intro f b hs
    have hr := GridTopo.Valid.side_range p.valid hs
    rw [q3 f b hs, hwv b f (by omega)]
  refine ⟨o, q, ?_, lo1, lq, ?_⟩
  · unfold fshPressFlux
    have eo' : pressFlux G.nc G.cellFacepos G.cellFaces gpress Binv s2 x { press := cpress, flux := h.cflux, work := h.work } = .ok o := eo
    simp only
    rw [eo', bind_ok, eq, bind_ok]
  · refine ⟨fun c hc => ?_, fun c hc => ?_, fun f w hf hw => ?_, fun f w c hcnd => ?_, fun f c hs hn1 hn2 => ?_⟩
    · intro i hi
      rw [outOf_eq p q1' q2' q3' hcont hc hi, (ho c hc).1]
      rfl
    · rw [(ho c hc).1, ← hbal c hc]
      congr 1
      exact Finset.sum_congr rfl (fun i hi => by rw [outOf_eq p q1' q2' q3' hcont hc (Finset.mem_range.1 hi)])
    · exact hpr f hf w ((pressOf_cond (hci f hf) w).2 hw)
    · have key : f < G.nf → condAt m (bcTypes bc) (bcValues bc) f = some (.fluxTotvol, w) := fun hf => (hci f hf _ _).2 hcnd
      constructor
      · intro hs
        have hk := key (GridTopo.Sides.lt p.valid hs)
        have := hbd f c (Or.inl hs) (by rw [hk]; rfl)
        simp only [hk, fluxOf] at this
        rw [q2' f c hs, this]
      · intro hs
        have hk := key (GridTopo.Sides.lt p.valid hs)
        have := hbd f c (Or.inr hs) (by rw [hk]; rfl)
        simp only [hk, fluxOf] at this
        rw [q3' f c hs, this]
    · have hf : f < G.nf := by
        rcases hs with hs | hs
        · exact GridTopo.Sides.lt p.valid hs
        · exact GridTopo.Sides.lt p.valid hs
      have hb := hbd f c hs ((pressOf_none (hci f hf)).2 hn1)
      have hzero : fluxOf (condAt m (bcTypes bc) (bcValues bc) f) = 0 := by
        rcases hco : condAt m (bcTypes bc) (bcValues bc) f with _ | ⟨ty, w⟩
        · rfl
        · cases ty with
          | fluxTotvol => exact absurd ((hci f hf _ _).1 hco) (hn2 w)
          | pressure => rfl
          | noflow => rfl
      simp only [hzero] at hb
      rcases hs with hs | hs
      · rw [q2' f c hs, hb]
      · rw [q3' f c hs, hb, neg_zero]

/-- **Construction.**  The constructor succeeds on every valid mesh with a face and makes data that fit; the matrix and the right hand side are not set. -/
theorem construct_fits (junk : Nat → Nat) (jd : Nat → Rat) {G : GridTopo} (hv : G.Valid) (h0 : G.cellFacepos[0]? = some 0) (hnf : 0 < G.nf) :
    ∃ h, ifshConstruct junk jd G = .ok h ∧ Fits G h ∧ SameArray h :=
  construct_ok junk jd hv h0 hnf

/-- What the caller has to do before an assembly. -/
def zeroed (h : Fsh) : Fsh := { h with lin := { sa := h.lin.sa.map fun _ => 0, b := h.lin.b.map fun _ => 0 } }

theorem zeroed_ok {G : GridTopo} {h : Fsh} (hf : Fits G h) (hs : SameArray h) : Fits G (zeroed h) ∧ SameArray (zeroed h) ∧ Zeroed (zeroed h) := by
  refine ⟨⟨hf.A, by simpa [zeroed] using hf.sa, by simpa [zeroed] using hf.b, hf.L, hf.q, hf.F1, hf.F2, hf.cflux, hf.loc⟩, hs, ?_, ?_⟩
  · intro v hv
    simp only [zeroed, List.mem_map] at hv
    obtain ⟨_, _, rfl⟩ := hv
    rfl
  · intro v hv
    simp only [zeroed, List.mem_map] at hv
    obtain ⟨_, _, rfl⟩ := hv
    rfl

/-- Two cells in a row. -/
def row2 : GridTopo := { nc := 2, nf := 3, faceCells := [-1, 0, 0, 1, 1, -1], cellFacepos := [0, 2, 4], cellFaces := [0, 1, 1, 2] }

/-- Pressure 5 on the left, a flux of 1 on the right. -/
def conds2 : FlowBc.Bcs := { nbc := 2, condCpty := 2, faceCpty := 2, condPos := [0, 1, 2], type := [.pressure, .fluxTotvol], value := [5, 1], face := [0, 2] }

/-- Inner products `2 I`. -/
def ip2 : List Rat := [2, 0, 0, 2, 2, 0, 0, 2]

theorem conds2_ok : BcOk row2 conds2 := by
  refine ⟨⟨by decide, rfl, ?_⟩, by decide, by decide, ?_, ?_, ?_⟩
  · intro c a b hc ha hb
    have : c < 2 := hc
    match c, this with
    | 0, _ => cases ha; cases hb; decide
    | 1, _ => cases ha; cases hb; decide
  · intro j hj
    have : j < 2 := hj
    match j, this with
    | 0, _ => exact ⟨0, 0, rfl, Or.inr ⟨rfl, rfl⟩⟩
    | 1, _ => exact ⟨2, 1, rfl, Or.inl ⟨rfl, rfl⟩⟩
  · intro j j' h1 h2 e
    have h1 : j < 2 := h1
    have h2 : j' < 2 := h2
    match j, h1, j', h2 with
    | 0, _, 0, _ => rfl
    | 1, _, 1, _ => rfl
    | 0, _, 1, _ => cases e
    | 1, _, 0, _ => cases e
  · intro i a b hi _ ha hb
    have : i < 2 := hi
    match i, this with
    | 0, _ => cases ha; cases hb; rfl
    | 1, _ => cases ha; cases hb; rfl

theorem row2_valid : row2.Valid := GridTopo.ValidB.valid (by decide +kernel)

theorem row2_sides (f : Nat) : ¬row2.Sides f (-1) (-1) := by
  rintro ⟨h1, h2⟩
  match f with
  | 0 => cases h2
  | 1 => cases h1
  | 2 => cases h1
  | k + 3 =>
    have : (6 : Nat) ≤ 2 * (k + 3) := by omega
    have hl : row2.faceCells.length = 6 := rfl
    rw [List.getElem?_eq_none (by omega)] at h1
    cases h1

/-- The hypotheses can be met. -/
theorem row2_problem (bc : Option FlowBc.Bcs) (h : bc = none ∨ bc = some conds2) (src : List Rat) (hs : 2 ≤ src.length) : Problem row2 bc src ip2 [0, 0, 0, 0] where
  valid := row2_valid
  first := rfl
  nonempty := by decide
  sides := row2_sides
  two := by decide
  bc := by
    intro b hb
    rcases h with rfl | rfl
    · cases hb
    · cases hb; exact conds2_ok
  src := hs
  Binv := by decide +kernel
  gpress := by decide

theorem ip2_symm : Symmetric row2.nc row2.cellFacepos ip2 := by
  intro c i j hc hi hj
  have key : ∀ c ∈ List.range 2, ∀ i ∈ List.range 2, ∀ j ∈ List.range 2, ip row2.cellFacepos ip2 c i j = ip row2.cellFacepos ip2 c j i := by decide +kernel
  have hd : ∀ c ∈ List.range 2, deg row2.cellFacepos c = 2 := by decide +kernel
  have hc' := List.mem_range.2 (show c < 2 from hc)
  rw [hd c hc'] at hi hj
  exact key c hc' i (List.mem_range.2 hi) j (List.mem_range.2 hj)

theorem ip2_posDef : PosDef row2.nc row2.cellFacepos ip2 := by
  intro c hc y hy
  have hd : ∀ c ∈ List.range 2, deg row2.cellFacepos c = 2 := by decide +kernel
  have key : ∀ c ∈ List.range 2, ip row2.cellFacepos ip2 c 0 0 = 2 ∧ ip row2.cellFacepos ip2 c 0 1 = 0 ∧ ip row2.cellFacepos ip2 c 1 0 = 0 ∧ ip row2.cellFacepos ip2 c 1 1 = 2 := by decide +kernel
  have hc' := List.mem_range.2 (show c < 2 from hc)
  obtain ⟨k1, k2, k3, k4⟩ := key c hc'
  obtain ⟨i, hi, hne⟩ := hy
  rw [hd c hc'] at hi ⊢
  simp only [Finset.sum_range_succ, Finset.sum_range_zero, k1, k2, k3, k4]
  have hsq : y 0 ≠ 0 ∨ y 1 ≠ 0 := by
    match i, hi with
    | 0, _ => exact Or.inl hne
    | 1, _ => exact Or.inr hne
  rcases hsq with h | h
  · have := mul_self_pos.2 h
    have := mul_self_nonneg (y 1)
    linarith
  · have := mul_self_pos.2 h
    have := mul_self_nonneg (y 0)
    linarith

example : ∃ h, Fits row2 h ∧ SameArray h ∧ Zeroed h := by
  obtain ⟨h, _, h1, h2⟩ := construct_fits (fun _ => 7) (fun k => k) row2_valid rfl (by decide)
  exact ⟨zeroed h, zeroed_ok h1 h2⟩

/-- Sources 1 and 1; the flux on the right is positive out of the reservoir. -/
example : (do
    let h ← ifshConstruct (fun _ => 7) (fun k => k) row2
    let h ← ifshAssemble row2 (some conds2) [1, 1] ip2 [0, 0, 0, 0] (zeroed h)
    let r ← fshPressFlux row2 ip2 [0, 0, 0, 0] h [5, 11/2, 5] [0, 0]
    .ok (decide (∀ f, f < h.A.m → rowDot h.A h.lin.sa (fun k => ([5, 11/2, 5] : List Rat).getD k 0) f = h.lin.b.getD f 0), r.1.press, r.2) : M (Bool × List Rat × List Rat)) =
    .ok (true, [11/2, 11/2], [-1, 0, 1]) := by decide +kernel

theorem ip2_regular : Regular row2 ip2 [0, 0, 0, 0] [-1, -1] := by
  intro c hc
  have hd : ∀ c ∈ List.range 2, deg row2.cellFacepos c = 2 := by decide +kernel
  have key : ∀ c ∈ List.range 2, (∑ i ∈ Finset.range (deg row2.cellFacepos c), (∑ j ∈ Finset.range (deg row2.cellFacepos c), ip row2.cellFacepos ip2 c i j - hf row2.cellFacepos [0, 0, 0, 0] c i) - ([-1, -1] : List Rat).getD c 0 ≠ 0) ∧
    ∀ i ∈ List.range 2, ip row2.cellFacepos ip2 c i i - (∑ j ∈ Finset.range (deg row2.cellFacepos c), ip row2.cellFacepos ip2 c i j) *
      (∑ j ∈ Finset.range (deg row2.cellFacepos c), ip row2.cellFacepos ip2 c i j - hf row2.cellFacepos [0, 0, 0, 0] c i) /
        (∑ i ∈ Finset.range (deg row2.cellFacepos c), (∑ j ∈ Finset.range (deg row2.cellFacepos c), ip row2.cellFacepos ip2 c i j - hf row2.cellFacepos [0, 0, 0, 0] c i) - ([-1, -1] : List Rat).getD c 0) ≠ 0 := by decide +kernel
  have hc' := List.mem_range.2 (show c < 2 from hc)
  refine ⟨(key c hc').1, fun i hi => (key c hc').2 i ?_⟩
  rw [hd c hc'] at hi
  exact List.mem_range.2 hi

/-- The compressible problem with `V = 0`, `P = -1` and a pressure on the left. -/
example : Problem row2 (some conds2) [1, 1] ip2 [0, 0, 0, 0] ∧ Regular row2 ip2 [0, 0, 0, 0] [-1, -1] ∧ ∃ f v, f < row2.nf ∧ Cond (some conds2) .pressure v f :=
  ⟨row2_problem _ (Or.inr rfl) _ (by decide), ip2_regular, 0, 5, by decide, conds2, rfl, 0, 0, 0, 1, by decide, rfl, rfl, rfl, rfl, by decide, by decide, rfl⟩

/-- **The matrix is never set to zero.**  Assembling a second time, now with sources 3 and 1, adds to the first system: the solution does not balance the sources. -/
theorem assembled_twice : ∃ h h1 h2 x o q, ifshConstruct (fun _ => 7) (fun k => k) row2 = .ok h ∧ ifshAssemble row2 (some conds2) [1, 1] ip2 [0, 0, 0, 0] (zeroed h) = .ok h1 ∧
    ifshAssemble row2 (some conds2) [3, 1] ip2 [0, 0, 0, 0] h1 = .ok h2 ∧ SolvesFsh h2 x ∧ fshPressFlux row2 ip2 [0, 0, 0, 0] h2 x [0, 0] = .ok (o, q) ∧
    row2.netOutflow (fun f => q.getD f 0) 0 = 11/4 := by
  obtain ⟨h, e, hf, hs⟩ := construct_fits (fun _ => 7) (fun k => (k : Rat)) row2_valid rfl (by decide)
  have key : (do
    let h ← ifshConstruct (fun _ => 7) (fun k => (k : Rat)) row2
    let h1 ← ifshAssemble row2 (some conds2) [1, 1] ip2 [0, 0, 0, 0] (zeroed h)
    let h2 ← ifshAssemble row2 (some conds2) [3, 1] ip2 [0, 0, 0, 0] h1
    let r ← fshPressFlux row2 ip2 [0, 0, 0, 0] h2 [5, 6, 11/2] [0, 0]
    .ok (decide (∀ f, f < h2.A.m → rowDot h2.A h2.lin.sa (fun k => ([5, 6, 11/2] : List Rat).getD k 0) f = h2.lin.b.getD f 0) &&
      decide (row2.netOutflow (fun f => r.2.getD f 0) 0 = 11/4)) : M Bool) = .ok true := by decide +kernel
  rw [e, bind_ok] at key
  obtain ⟨h1, e1, key⟩ := bind_eq_ok.1 key
  obtain ⟨h2, e2, key⟩ := bind_eq_ok.1 key
  obtain ⟨r, e3, key⟩ := bind_eq_ok.1 key
  have key := Except.ok.inj key
  rw [Bool.and_eq_true, decide_eq_true_eq, decide_eq_true_eq] at key
  exact ⟨h, h1, h2, [5, 6, 11/2], r.1, r.2, e, e1, e2, key.1, e3, key.2⟩

/-- **The compressible system is changed although it is regular.**  Two closed cells with sources 1 and `P = -1`: the pressures should be 1 and nothing should flow.  As no pressure is prescribed the first
element of the matrix is doubled; the solution then has a flux of 1/2 through the closed face 0. -/
theorem closed_compressible_leaks : ∃ h h1 x o q, ifshConstruct (fun _ => 7) (fun k => k) row2 = .ok h ∧ cfshAssemble row2 none [1, 1] ip2 [0, 0, 0, 0] [-1, -1] [0, 0, 0, 0] (zeroed h) = .ok h1 ∧
    SolvesFsh h1 x ∧ fshPressFlux row2 ip2 [0, 0, 0, 0] h1 x [0, 0] = .ok (o, q) ∧ q.getD 0 0 = -1/2 := by
  obtain ⟨h, e, hf, hs⟩ := construct_fits (fun _ => 7) (fun k => (k : Rat)) row2_valid rfl (by decide)
  have key : (do
    let h ← ifshConstruct (fun _ => 7) (fun k => (k : Rat)) row2
    let h2 ← cfshAssemble row2 none [1, 1] ip2 [0, 0, 0, 0] [-1, -1] [0, 0, 0, 0] (zeroed h)
    let r ← fshPressFlux row2 ip2 [0, 0, 0, 0] h2 [5/12, 3/4, 5/6] [0, 0]
    .ok (decide (∀ f, f < h2.A.m → rowDot h2.A h2.lin.sa (fun k => ([5/12, 3/4, 5/6] : List Rat).getD k 0) f = h2.lin.b.getD f 0) &&
      decide (r.2.getD 0 0 = -1/2)) : M Bool) = .ok true := by decide +kernel
  rw [e, bind_ok] at key
  obtain ⟨h2, e2, key⟩ := bind_eq_ok.1 key
  obtain ⟨r, e3, key⟩ := bind_eq_ok.1 key
  have key := Except.ok.inj key
  rw [Bool.and_eq_true, decide_eq_true_eq, decide_eq_true_eq] at key
  exact ⟨h, h2, [5/12, 3/4, 5/6], r.1, r.2, e, e2, key.1, e3, key.2⟩

/-- Inner products `2 I` and `3 I` of two cells with three faces each. -/
def ip3 : List Rat := [2, 0, 0, 0, 2, 0, 0, 0, 2, 3, 0, 0, 0, 3, 0, 0, 0, 3]

/-- **The well correction uses the wrong inner product.**  The pressure of the second cell rises by 1 because of its well, so its fluxes should rise by the row sums 3, 3, 3 of its inner product; the third
rises by 2, as the position in the inner products was moved on by 6 instead of 9. -/
theorem well_correction_wrong : ∃ o, pressFluxWell 2 [0, 3, 6] 4 [0, 0, 1] [0, 0] ip3 [1] [0] { L := [6, 10], q := [0, 0], F1 := [2, 2, 2, 3, 3, 3], F2 := [2, 2, 2, 3, 3, 3], r := [0, 0, 0], S := [], one := [1, 1, 1] } ⟨[1]⟩
      [0, 0, 0, 0, 10] ⟨[0, 0], [0, 0, 0, 0, 0, 0], [0], [0]⟩ = .ok o ∧ o.cpress = [0, 1] ∧ o.cflux = [0, 0, 0, 3, 3, 2] ∧
    ∑ j ∈ Finset.range 3, ip [0, 3, 6] ip3 1 2 j * 1 = 3 := by
  refine ⟨{ cpress := [0, 1], cflux := [0, 0, 0, 3, 3, 2], wflux := [9], work := [10] }, by decide +kernel, rfl, rfl, by decide +kernel⟩

end Opm.Hybsys
