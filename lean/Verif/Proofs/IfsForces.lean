import Verif.Proofs.IfsAssemble
/-! # What the assembly does to the residual: boundary conditions, sources, everything together -/

namespace Opm.IfsTpfa
open Opm Opm.SparseSys Graph

/-- The face of entry `j` of the boundary conditions. -/
def bface (bc : FlowBc.Bcs) (j : Nat) : Nat := (bc.face.getD j 0).toNat

/-- The cell at a boundary face. -/
def bcell (G : GridTopo) (bc : FlowBc.Bcs) (j : Nat) : Nat :=
  (if 0 ≤ G.faceCells.getD (2 * bface bc j) (-1) then G.faceCells.getD (2 * bface bc j) (-1) else G.faceCells.getD (2 * bface bc j + 1) (-1)).toNat

/-- What entry `j` of condition `i` lets into its cell. -/
def bcIn (G : GridTopo) (bc : FlowBc.Bcs) (trans : List Rat) (x : Nat → Rat) (i j : Nat) : Rat :=
  match bc.type.getD i .noflow with
  | .pressure => trans.getD (bface bc j) 0 * (bc.value.getD i 0 - x (bcell G bc j))
  | .fluxTotvol => bc.value.getD i 0
  | .noflow => 0

theorem bcFace_ok {G : GridTopo} {bc : FlowBc.Bcs} (hv : G.Valid) (h : BcOk G bc) {j : Nat} (hj : j < bc.condPos.getD bc.nbc 0) :
    ∃ a b : Int, bcFace G bc j = .ok (bface bc j, a, b) ∧ G.Sides (bface bc j) a b ∧ bface bc j < G.nf ∧ bc.face[j]? = some (bface bc j : Int) ∧ bcell G bc j < G.nc ∧
      ((a = (bcell G bc j : Int) ∧ b = -1) ∨ (a = -1 ∧ b = (bcell G bc j : Int))) := by
  obtain ⟨f, c, hf, hs⟩ := h.face j hj
  have ef : bface bc j = f := by unfold bface; rw [getD_of_getElem? hf]; simp
  unfold bcFace bcell
  rw [ef, rd_of_getElem? hf, bind_ok, index_ok, bind_ok]
  rcases hs with hs | hs
  · obtain ⟨r1, _⟩ := hv.side_range hs
    refine ⟨c, -1, ?_, hs, hs.lt hv, hf, ?_, ?_⟩
    · rw [rd_of_getElem? hs.1, bind_ok, rd_of_getElem? hs.2, bind_ok, check_ok (by simp), bind_ok]
    · rw [getD_of_getElem? hs.1, if_pos (by omega)]; omega
    · rw [getD_of_getElem? hs.1, if_pos (by omega)]; simp
  · obtain ⟨_, r1⟩ := hv.side_range hs
    refine ⟨-1, c, ?_, hs, hs.lt hv, hf, ?_, ?_⟩
    · rw [rd_of_getElem? hs.1, bind_ok, rd_of_getElem? hs.2, bind_ok, check_ok (by simp), bind_ok]
    · rw [getD_of_getElem? hs.1, getD_of_getElem? hs.2, if_neg (by omega)]; omega
    · rw [getD_of_getElem? hs.1, getD_of_getElem? hs.2, if_neg (by omega)]; simp

theorem bc_not_interior {G : GridTopo} {bc : FlowBc.Bcs} (hv : G.Valid) (h : BcOk G bc) {j : Nat} (hj : j < bc.condPos.getD bc.nbc 0) : ¬ G.Interior (bface bc j) := by
  obtain ⟨a, b, _, hs, _, _, _, hc⟩ := bcFace_ok hv h hj
  rintro ⟨a', b', hs'⟩
  obtain ⟨e1, e2⟩ := hs.unique hs'
  omega

def bcSum (G : GridTopo) (bc : FlowBc.Bcs) (trans : List Rat) (xr : XR) : Rat :=
  ∑ i ∈ Finset.range bc.nbc, ∑ j ∈ Finset.Ico (bc.condPos.getD i 0) (bc.condPos.getD (i + 1) 0), if xr.2 = bcell G bc j then bcIn G bc trans xr.1 i j else 0

theorem bcContrib_ok {G : GridTopo} {bc : FlowBc.Bcs} {F : Option Forces} {A : Csr} (hv : G.Valid) (h : BcOk G bc) (hA : Fits G F A) {trans fg : List Rat} (ht : G.nf ≤ trans.length)
    (hf : G.nf ≤ fg.length) (hfg : ∀ f, f < G.nf → ¬ G.Interior f → fg.getD f 0 = 0) {s : Sys} (hs : SysOk A s) :
    ∃ s', bcContrib G A bc trans fg s = .ok s' ∧ SysOk A s'.sys ∧ (s'.neumann = false ↔ ∃ i, i < bc.nbc ∧ bc.type[i]? = some .pressure) ∧
      ∀ xr : XR, Res A s'.sys xr = Res A s xr + bcSum G bc trans xr := by
  unfold bcContrib bcSum
  refine loop_inv (P := fun k (t : BState) => SysOk A t.sys ∧ (t.neumann = false ↔ ∃ i, i < k ∧ bc.type[i]? = some .pressure) ∧
      ∀ xr : XR, Res A t.sys xr = Res A s xr + ∑ i ∈ Finset.range k, ∑ j ∈ Finset.Ico (bc.condPos.getD i 0) (bc.condPos.getD (i + 1) 0),
        if xr.2 = bcell G bc j then bcIn G bc trans xr.1 i j else 0) ⟨hs, by simp, by simp⟩ ?_
  rintro i t hi ⟨hk, hn, hr⟩
  have hti : bc.type[i]? = some (bc.type.getD i .noflow) := by
    have := h.type
    rw [List.getD_eq_getElem?_getD, List.getElem?_eq_getElem (by omega)]; rfl
  have hvi : rd bc.value i = .ok (bc.value.getD i 0) := rd_of_getElem? (getElem?_getD (by have := h.value; omega))
  obtain ⟨ty, hty⟩ : ∃ ty, ty = bc.type.getD i .noflow := ⟨_, rfl⟩
  have hstep : ∀ (s' : Sys) (n : Bool), SysOk A s' → (n = false ↔ t.neumann = false ∨ ty = .pressure) →
      (∀ xr : XR, Res A s' xr = Res A t.sys xr + ∑ j ∈ Finset.Ico (bc.condPos.getD i 0) (bc.condPos.getD (i + 1) 0),
        if xr.2 = bcell G bc j then bcIn G bc trans xr.1 i j else 0) →
      SysOk A s' ∧ (n = false ↔ ∃ i', i' < i + 1 ∧ bc.type[i']? = some .pressure) ∧
      ∀ xr : XR, Res A s' xr = Res A s xr + ∑ i ∈ Finset.range (i + 1), ∑ j ∈ Finset.Ico (bc.condPos.getD i 0) (bc.condPos.getD (i + 1) 0),
        if xr.2 = bcell G bc j then bcIn G bc trans xr.1 i j else 0 := by
    intro s' n h1 h2 h3
    refine ⟨h1, ?_, fun xr => ?_⟩
    · rw [h2, hn]
      constructor
      · rintro (⟨i', h4, h5⟩ | h)
        · exact ⟨i', by omega, h5⟩
        · exact ⟨i, by omega, by rw [hti, ← hty, h]⟩
      · rintro ⟨i', h4, h5⟩
        by_cases e : i' = i
        · subst e
          rw [hti, ← hty] at h5
          exact Or.inr (Option.some.inj h5)
        · exact Or.inl ⟨i', by omega, h5⟩
    · rw [h3, hr, Finset.sum_range_succ, add_assoc]
  have hnc := hA.nc
  unfold bcCond
  rw [rd_of_getElem? hti, bind_ok, ← hty]
  cases ty with
  | noflow =>
    refine ⟨t, rfl, hstep t.sys t.neumann hk (by simp) fun xr => ?_⟩
    rw [Finset.sum_eq_zero, add_zero]
    intro j _
    unfold bcIn
    rw [← hty]
    simp
  | pressure =>
    simp only []
    rw [rd_of_getElem? (h.pos.get (by omega)), bind_ok, rd_of_getElem? (h.pos.get (c := i + 1) hi), bind_ok]
    obtain ⟨s1, e1, k1, r1⟩ := forRange_sum (s := t.sys) (f := fun j s => do
      let q ← bcFace G bc j
      let t ← rd trans q.1
      let g ← rd fg q.1
      let v ← rd bc.value i
      let sg : Rat := if 0 ≤ q.2.1 then 1 else -1
      let c ← index (if 0 ≤ q.2.1 then q.2.1 else q.2.2)
      let ix ← elmIndex c c A.ia A.ja
      let s ← addSa ix t s
      let s ← addB c (t * v) s
      addB c (-(sg * t * g)) s) (h.pos.le hi) (SysOk A) (Res A) (fun j xr => if xr.2 = bcell G bc j then bcIn G bc trans xr.1 i j else 0) hk (by
      intro j t h1 h2 hk
      have hj := h.pos.lt_total hi h2
      obtain ⟨a, b, e, hs, hlt, _, hc, hab⟩ := bcFace_ok hv h hj
      have hci : (if 0 ≤ a then a else b) = (bcell G bc j : Int) := by
        rcases hab with ⟨h1, h2⟩ | ⟨h1, h2⟩
        · rw [if_pos (by omega), h1]
        · rw [if_neg (by omega), h2]
      obtain ⟨jc, hjc⟩ := hA.diag (bcell G bc j) (by omega)
      obtain ⟨t1, e1, k1, b1, r1⟩ := addSa_res hA.mat hk hjc (trans.getD (bface bc j) 0)
      obtain ⟨t2, e2, k2, b2, r2⟩ := addB_res (i := bcell G bc j) k1 (by omega) (trans.getD (bface bc j) 0 * bc.value.getD i 0)
      obtain ⟨t3, e3, k3, b3, r3⟩ := addB_res (i := bcell G bc j) k2 (by omega) (-((if 0 ≤ a then 1 else -1) * trans.getD (bface bc j) 0 * fg.getD (bface bc j) 0))
      rw [e, bind_ok, rd_of_getElem? (getElem?_getD (by omega)), bind_ok, rd_of_getElem? (getElem?_getD (by omega)), bind_ok, hvi, bind_ok]
      simp only [hci, index_ok, bind_ok]
      rw [hjc.2.1, bind_ok, e1, bind_ok, e2, bind_ok]
      refine ⟨t3, e3, k3, fun xr => ?_⟩
      rw [r3, r2, r1, hfg _ hlt (bc_not_interior hv h hj)]
      unfold bcIn
      rw [← hty]
      simp only []
      split
      · ring
      · ring)
    rw [e1, bind_ok]
    exact ⟨_, rfl, hstep s1 false k1 (by simp) r1⟩
  | fluxTotvol =>
    simp only []
    have hsing := h.single i _ _ hi (by rw [hti, ← hty]) (h.pos.get (by omega)) (h.pos.get (c := i + 1) hi)
    rw [rd_of_getElem? (h.pos.get (by omega)), bind_ok, rd_of_getElem? (h.pos.get (c := i + 1) hi), bind_ok, check_ok (by simpa using hsing), bind_ok]
    obtain ⟨s1, e1, k1, r1⟩ := forRange_sum (s := t.sys) (f := fun j s => do
      let q ← bcFace G bc j
      let c ← index (if 0 ≤ q.2.1 then q.2.1 else q.2.2)
      let v ← rd bc.value i
      addB c v s) (h.pos.le hi) (SysOk A) (Res A) (fun j xr => if xr.2 = bcell G bc j then bcIn G bc trans xr.1 i j else 0) hk (by
      intro j t h1 h2 hk
      have hj := h.pos.lt_total hi h2
      obtain ⟨a, b, e, hs, hlt, _, hc, hab⟩ := bcFace_ok hv h hj
      have hci : (if 0 ≤ a then a else b) = (bcell G bc j : Int) := by
        rcases hab with ⟨h1, h2⟩ | ⟨h1, h2⟩
        · rw [if_pos (by omega), h1]
        · rw [if_neg (by omega), h2]
      obtain ⟨t2, e2, k2, b2, r2⟩ := addB_res (i := bcell G bc j) hk (by omega) (bc.value.getD i 0)
      rw [e, bind_ok]
      simp only [hci, index_ok, bind_ok]
      rw [hvi, bind_ok]
      refine ⟨t2, e2, k2, fun xr => ?_⟩
      rw [r2]
      unfold bcIn
      rw [← hty])
    rw [e1, bind_ok]
    exact ⟨_, rfl, hstep s1 t.neumann k1 (by simp) r1⟩

/-! ## All driving forces -/

theorem forcePart_getD (G : GridTopo) (A : Csr) (F : Option Forces) (trans fg : List Rat) (s : Sys) :
    forcePart G A F trans fg s = forcePart G A (some (F.getD noForces)) trans fg s := by
  cases F <;> rfl

def mtOf (F : Forces) : List Rat := F.totmob.getD []
def wdpOf (F : Forces) : List Rat := F.wdp.getD []

/-- The modes of all wells. -/
def Modes (F : Forces) (mode : Nat → WellMode) : Prop := ∀ W, F.wells = some W → ∀ w, w < W.nw → HasMode W w (mode w)

theorem exists_modes {G : GridTopo} {F : Forces} (h : ForcesOk G F) : ∃ mode, Modes F mode := by
  unfold Modes
  cases hW : F.wells with
  | none => exact ⟨fun _ => .shut, fun W h => by cases h⟩
  | some W =>
    have := (h.wells W hW).1.mode
    have : ∀ w, ∃ m, w < W.nw → HasMode W w m := by
      intro w
      by_cases hw : w < W.nw
      · obtain ⟨m, hm⟩ := this w hw
        exact ⟨m, fun _ => hm⟩
      · exact ⟨.shut, fun h => absurd h hw⟩
    choose m hm using this
    refine ⟨m, fun W' e w hw => ?_⟩
    cases e
    exact hm w hw

def wellsSum (nc : Nat) (F : Forces) (mode : Nat → WellMode) (xr : XR) : Rat :=
  match F.wells with
  | none => 0
  | some W => ∑ w ∈ Finset.range W.nw, wellTerm nc W (mtOf F) (wdpOf F) (mode w) w xr

def bcsSum (G : GridTopo) (F : Forces) (trans : List Rat) (xr : XR) : Rat :=
  match F.bc with
  | none => 0
  | some bc => bcSum G bc trans xr

/-- Some well is operated at a given bottom-hole pressure. -/
def SomeBhp (F : Forces) (mode : Nat → WellMode) : Prop := ∃ W w, F.wells = some W ∧ w < W.nw ∧ isBhp (mode w) = true

theorem wellData_of {G : GridTopo} {F : Forces} {A : Csr} {W : Wells.W} (hA : Fits G (some F) A) (h : ForcesOk G F) (hW : F.wells = some W) :
    F.totmob = some (mtOf F) ∧ F.wdp = some (wdpOf F) ∧ WellData G A W (mtOf F) (wdpOf F) := by
  obtain ⟨h1, mt, wdp, e1, e2, h2, h3⟩ := h.wells W hW
  obtain ⟨h4, h5⟩ := hA.wells F W rfl hW
  have e3 : mtOf F = mt := by unfold mtOf; rw [e1]; rfl
  have e4 : wdpOf F = wdp := by unfold wdpOf; rw [e2]; rfl
  rw [e3, e4]
  exact ⟨e1, e2, ⟨h1, h2, h3, hA.mat, h4, hA.diag, h5⟩⟩

theorem wellPart_ok {G : GridTopo} {F : Forces} {A : Csr} (hA : Fits G (some F) A) (h : ForcesOk G F) {mode : Nat → WellMode} (hm : Modes F mode) {s : Sys} (hs : SysOk A s)
    (hb : ∀ r, G.nc ≤ r → s.b.getD r 0 = 0) :
    ∃ s', wellPart G A F s = .ok s' ∧ SysOk A s'.sys ∧ s'.ok = true ∧ (s'.allRate = false ↔ SomeBhp F mode) ∧
      ∀ xr : XR, Res A s'.sys xr = Res A s xr + wellsSum G.nc F mode xr := by
  unfold wellPart wellsSum SomeBhp
  cases hW : F.wells with
  | none => exact ⟨_, rfl, hs, rfl, by simp, by simp⟩
  | some W =>
    obtain ⟨e1, e2, hd⟩ := wellData_of hA h hW
    rw [e1, e2]
    simp only []
    rw [check_ok (by simpa using hd.m), bind_ok]
    obtain ⟨s', e, k, o, a, r⟩ := wellContrib_ok hd (hm W hW) hs (fun w hw => hb _ (by omega))
    refine ⟨s', e, k, o, ?_, r⟩
    rw [a]
    constructor
    · rintro ⟨w, h1, h2⟩; exact ⟨W, w, rfl, h1, h2⟩
    · rintro ⟨W', w, e, h1, h2⟩; cases e; exact ⟨w, h1, h2⟩

theorem bcPart_ok {G : GridTopo} {F : Forces} {A : Csr} (hv : G.Valid) (hA : Fits G (some F) A) (h : ForcesOk G F) {trans fg : List Rat} (ht : G.nf ≤ trans.length)
    (hf : G.nf ≤ fg.length) (hfg : ∀ f, f < G.nf → ¬ G.Interior f → fg.getD f 0 = 0) {s : Sys} (hs : SysOk A s) :
    ∃ s', bcPart G A F trans fg s = .ok s' ∧ SysOk A s'.sys ∧ (s'.neumann = false ↔ SomePressureCond F) ∧
      ∀ xr : XR, Res A s'.sys xr = Res A s xr + bcsSum G F trans xr := by
  unfold bcPart bcsSum SomePressureCond
  cases hB : F.bc with
  | none => exact ⟨_, rfl, hs, by simp, by simp⟩
  | some bc =>
    obtain ⟨s', e, k, a, r⟩ := bcContrib_ok hv (h.bc bc hB) hA ht hf hfg hs
    refine ⟨s', e, k, ?_, r⟩
    rw [a]
    constructor
    · rintro ⟨w, h1, h2⟩; exact ⟨bc, w, rfl, h1, h2⟩
    · rintro ⟨W', w, e, h1, h2⟩; cases e; exact ⟨w, h1, h2⟩

theorem srcPart_ok {G : GridTopo} {F : Forces} {A : Csr} (hA : Fits G (some F) A) (h : ForcesOk G F) {s : Sys} (hs : SysOk A s) :
    ∃ s', srcPart G F s = .ok s' ∧ SysOk A s' ∧ ∀ xr : XR, Res A s' xr = Res A s xr + if xr.2 < G.nc then srcOf F xr.2 else 0 := by
  unfold srcPart srcOf
  cases hS : F.src with
  | none => exact ⟨_, rfl, hs, by simp⟩
  | some src =>
    have hl := h.src src hS
    have hnc := hA.nc
    obtain ⟨s', e, k, r⟩ := loop_sum (n := G.nc) (s := s) (f := fun c s => do
      let q ← rd src c
      addB c q s) (SysOk A) (Res A) (fun c xr => if xr.2 = c then src.getD c 0 else 0) hs (by
      intro c t hc hk
      obtain ⟨t1, e1, k1, _, r1⟩ := addB_res (i := c) hk (by omega) (src.getD c 0)
      rw [rd_of_getElem? (getElem?_getD (by omega)), bind_ok]
      exact ⟨t1, e1, k1, r1⟩)
    refine ⟨s', e, k, fun xr => ?_⟩
    rw [r, Finset.sum_ite_eq]
    simp

/-- Everything the assembled equations say, as a residual. -/
def balance (G : GridTopo) (F : Forces) (mode : Nat → WellMode) (trans fg : List Rat) (xr : XR) : Rat :=
  (if xr.2 < G.nc then srcOf F xr.2 - G.netOutflow (intFlux G trans fg xr.1) xr.2 else 0) + wellsSum G.nc F mode xr + bcsSum G F trans xr

/-- The arrays of the solver data are large enough. -/
structure DataOk (G : GridTopo) (h : Data) : Prop where
  sa : h.sa.length = h.A.nnz
  b : h.b.length = h.A.m
  fgrav : G.nf ≤ h.fgrav.length

/-- The face values of the gravity term. -/
structure GravOk (G : GridTopo) (gpress fg : List Rat) : Prop where
  len : G.nf ≤ fg.length
  boundary : ∀ f, f < G.nf → ¬ G.Interior f → fg.getD f 0 = 0
  interior : ∀ f a b i1 i2 : Nat, G.Sides f a b → G.HalfFace a f i1 → G.HalfFace b f i2 → fg.getD f 0 = gpress.getD i1 0 - gpress.getD i2 0

theorem forcePart_ok {G : GridTopo} {F : Forces} {A : Csr} (hv : G.Valid) (hA : Fits G (some F) A) (h : ForcesOk G F) {mode : Nat → WellMode} (hm : Modes F mode)
    {trans fg : List Rat} (ht : G.nf ≤ trans.length) (hf : G.nf ≤ fg.length) (hfg : ∀ f, f < G.nf → ¬ G.Interior f → fg.getD f 0 = 0) {s : Sys} (hs : SysOk A s)
    (hb : ∀ r, G.nc ≤ r → s.b.getD r 0 = 0) :
    ∃ r, forcePart G A (some F) trans fg s = .ok r ∧ SysOk A r.1 ∧ r.2.2.2 = true ∧ (r.2.1 = false ↔ SomeBhp F mode) ∧ (r.2.2.1 = false ↔ SomePressureCond F) ∧
      ∀ xr : XR, Res A r.1 xr = Res A s xr + wellsSum G.nc F mode xr + bcsSum G F trans xr + if xr.2 < G.nc then srcOf F xr.2 else 0 := by
  obtain ⟨s1, e1, k1, o1, a1, r1⟩ := wellPart_ok hA h hm hs hb
  obtain ⟨s2, e2, k2, a2, r2⟩ := bcPart_ok hv hA h ht hf hfg k1
  obtain ⟨s3, e3, k3, r3⟩ := srcPart_ok hA h k2
  unfold forcePart
  simp only []
  rw [e1, bind_ok, e2, bind_ok, e3, bind_ok]
  exact ⟨_, rfl, k3, o1, a1, a2, fun xr => by rw [r3, r2, r1]⟩

theorem Fits.getD {G : GridTopo} {F : Option Forces} {A : Csr} (h : Fits G F A) : Fits G (some (F.getD noForces)) A := by
  cases F with
  | some F => exact h
  | none => exact ⟨h.mat, h.nc, h.diag, h.adj, fun F' W e h => by cases e; cases h⟩

/-- The incompressible assembly: it succeeds, and its residual is the balance. -/
theorem assembleIncompressible_ok {G : GridTopo} {F : Option Forces} {h : Data} (hv : G.Valid) (h0 : G.cellFacepos[0]? = some 0) (hA : Fits G F h.A)
    (hF : ForcesOk G (F.getD noForces)) {mode : Nat → WellMode} (hm : Modes (F.getD noForces) mode) {trans gpress : List Rat} (hi : InOk G trans gpress) (hd : DataOk G h) :
    ∃ h' sing, assembleIncompressible G F trans gpress h = .ok (h', sing, true) ∧ h'.A = h.A ∧ h'.x = h.x ∧ h'.work = h.work ∧ DataOk G h' ∧ GravOk G gpress h'.fgrav ∧
      h'.fgrav.length = h.fgrav.length ∧
      (sing = false ↔ SomeBhp (F.getD noForces) mode ∨ SomePressureCond (F.getD noForces)) ∧
      ∀ xr : XR, Res h'.A ⟨h'.sa, h'.b⟩ xr = balance G (F.getD noForces) mode trans h'.fgrav xr := by
  obtain ⟨sa, e1, l1, z1⟩ := vectorZero_ok (n := h.A.nnz) (v := h.sa) (by rw [hd.sa])
  obtain ⟨b, e2, l2, z2⟩ := vectorZero_ok (n := h.A.m) (v := h.b) (by rw [hd.b])
  obtain ⟨fg, e3, l3, g1, g2⟩ := gravTerm_ok hv h0 hi.gpress hd.fgrav
  have hfl : G.nf ≤ fg.length := by rw [l3]; exact hd.fgrav
  have hs0 : SysOk h.A ⟨sa, b⟩ := ⟨by rw [l1]; exact hd.sa, by rw [l2]; exact hd.b⟩
  obtain ⟨s, e4, k4, r4⟩ := faceContrib_ok hv h0 hA hi.trans hfl g1 hs0
  have hball : ∀ r, b.getD r 0 = 0 := by
    intro r
    by_cases hr : r < h.A.m
    · exact z2 r hr
    · rw [List.getD_eq_getElem?_getD, List.getElem?_eq_none (by rw [l2, hd.b]; omega)]; rfl
  have hsall : ∀ r, sa.getD r 0 = 0 := by
    intro r
    by_cases hr : r < h.A.nnz
    · exact z1 r hr
    · rw [List.getD_eq_getElem?_getD, List.getElem?_eq_none (by rw [l1, hd.sa]; omega)]; rfl
  obtain ⟨r, e5, k5, o5, a5, b5, r5⟩ := forcePart_ok hv hA.getD hF hm hi.trans hfl g1 k4.1 (fun r hr => by rw [k4.2 r hr]; exact hball r)
  refine ⟨{ h with sa := r.1.sa, b := r.1.b, fgrav := fg }, r.2.2.1 && r.2.1, ?_, rfl, rfl, rfl, ⟨k5.1, k5.2, hfl⟩, ⟨hfl, g1, g2⟩, l3, ?_, ?_⟩
  · unfold assembleIncompressible
    rw [e1, bind_ok, e2, bind_ok, e3, bind_ok, e4, bind_ok, forcePart_getD, e5, bind_ok, o5]
  · rw [Bool.and_eq_false_iff, a5, b5]; tauto
  · intro xr
    show Res h.A r.1 xr = _
    rw [r5, r4]
    have hz : Res h.A ⟨sa, b⟩ xr = 0 := by
      unfold Res rowDot
      simp only [hball, hsall]
      simp
    rw [hz]
    unfold balance
    split <;> ring

end Opm.IfsTpfa
