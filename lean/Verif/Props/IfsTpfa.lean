import Verif.Proofs.IfsUnique
import Verif.Proofs.GridValid
/-!
# Incompressible pressure solver: properties

`Problem G F trans gpress h` (Spec/IfsTpfa) describes the admissible inputs.  `Solves h x` says that `x` solves the linear system in `h`; the code leaves solving it to
a linear solver, so the theorems are about every `x` that does.
-/

namespace Opm.IfsTpfa
open Opm Opm.SparseSys

/-- Constructing solver data succeeds for every valid nonempty mesh and every set of wells on it. -/
theorem construct_succeeds (junk : Nat → Nat) (jd : Nat → Rat) {G : GridTopo} (hv : G.Valid) (hnc : 0 < G.nc) {W : Option Wells.W}
    (hW : ∀ W', W = some W' → WellsOk G W') :
    ∃ h, construct junk jd G W = .ok h ∧ h.A.m = G.nc + numWells W ∧ h.x.length = h.A.m ∧ h.b.length = h.A.m ∧ h.sa.length = h.A.nnz := by
  obtain ⟨h, e, p, l1, l2, l3, _⟩ := construct_ok junk jd hv hnc hW
  exact ⟨h, e, p.m, l3, l2, l1⟩

section
variable {G : GridTopo} {F : Option Forces} {trans gpress : List Rat} {h : Data}

/-- What the two cases of the assembly leave behind. -/
theorem assemble_cases (p : Problem G F trans gpress h) {mode : Nat → WellMode} (hm : Modes (F.getD noForces) mode) :
    ∃ h1 sing h', assembleIncompressible G F trans gpress h = .ok (h1, sing, true) ∧ assemble G F trans gpress h = .ok (h', true) ∧ SameShape h h' ∧ SameShape h h1 ∧
      GravOk G gpress h'.fgrav ∧ h'.fgrav = h1.fgrav ∧ h1.b = h'.b ∧
      (sing = false ↔ SomeBhpWell (F.getD noForces) ∨ SomePressureCond (F.getD noForces)) ∧
      (∀ xr : XR, Res h.A ⟨h1.sa, h1.b⟩ xr = balance G (F.getD noForces) mode trans h'.fgrav xr) ∧
      (sing = false → h' = h1) ∧ (sing = true → h'.sa = h1.sa.set 0 (h1.sa.getD 0 0 * 2)) := by
  have st := p.setting
  obtain ⟨h1, sing, e, hA, hx, hwk, hd, hg, hfl, hsing, hres⟩ := assembleIncompressible_ok st.valid st.first st.fits st.forces hm st.sizes st.data
  have hsame : SameShape h h1 := ⟨hA, by rw [hd.sa, hA, st.data.sa], by rw [hd.b, hA, st.data.b], by rw [hx], hfl, by rw [hwk]⟩
  rw [someBhp_iff hm] at hsing
  rw [hA] at hres
  cases hs : sing with
  | false =>
    subst hs
    refine ⟨h1, false, h1, e, ?_, hsame, hsame, hg, rfl, rfl, hsing, hres, fun _ => rfl, fun h => by cases h⟩
    unfold assemble
    rw [e, bind_ok]
    rfl
  | true =>
    subst hs
    have hpos : 0 < h1.sa.length := by
      obtain ⟨W, hW, hp⟩ := st.pattern
      have he := hp.first_elm st.valid st.nonempty hW
      have := st.fits.mat.pos.lt_total he.1 he.2.2.2.1
      rw [st.fits.mat.nnz] at this
      rw [hd.sa, hA]
      exact this
    refine ⟨h1, true, { h1 with sa := h1.sa.set 0 (h1.sa.getD 0 0 * 2) }, e, ?_, ⟨hsame.A, ?_, hsame.b, hsame.x, hsame.fgrav, hsame.work⟩, hsame, hg, rfl, rfl, hsing, hres,
      fun h => (by cases h), fun _ => rfl⟩
    · unfold assemble
      rw [e, bind_ok]
      simp only [Bool.and_self, if_true]
      rw [rd_of_getElem? (getElem?_getD hpos), bind_ok, wr_ok hpos, bind_ok]
    · simpa using hsame.sa

/-- Assembling succeeds on every admissible problem, reports success, and leaves data that can be used again. -/
theorem assemble_succeeds (p : Problem G F trans gpress h) : ∃ h', assemble G F trans gpress h = .ok (h', true) ∧ Problem G F trans gpress h' := by
  obtain ⟨mode, hm⟩ := exists_modes p.forces
  obtain ⟨h1, sing, h', _, e, hs, _⟩ := assemble_cases p hm
  exact ⟨h', e, p.of_same hs⟩

/-- The vector as a function. -/
abbrev vec (xs : List Rat) : Nat → Rat := fun k => xs.getD k 0

/-- What is known after assembling, solving and computing fluxes. -/
theorem pressFlux_of (p : Problem G F trans gpress h) {mode : Nat → WellMode} (hm : Modes (F.getD noForces) mode) {h' : Data} {ok : Bool}
    (ha : assemble G F trans gpress h = .ok (h', ok)) {xs : List Rat} (hl : xs.length = h'.A.m) {s : Soln} (hs : SolnOk G (F.getD noForces) s) :
    ∃ s', pressFlux G F trans { h' with x := xs } s = .ok s' ∧ SolnOk G (F.getD noForces) s' ∧ FluxOk G (F.getD noForces) mode trans h'.fgrav xs s s' := by
  have st := p.setting
  obtain ⟨h1, sing, h'', _, e, hsame, _, hg, _⟩ := assemble_cases p hm
  rw [e] at ha
  cases ha
  have hxm : xs.length = h.A.m := by rw [hl, hsame.A]
  exact pressFlux_ok st.valid st.forces hm st.sizes.trans (h := { h' with x := xs }) hg.len hg.boundary (by show _ ≤ xs.length; rw [hxm]; exact st.fits.nc)
    (fun W hW => by show _ ≤ xs.length; rw [hxm, (st.fits.getD.wells _ W rfl hW).1]) hs

theorem bal_zero (p : Problem G F trans gpress h) (hns : SomeBhpWell (F.getD noForces) ∨ SomePressureCond (F.getD noForces)) {mode : Nat → WellMode}
    (hm : Modes (F.getD noForces) mode) {h' : Data} {ok : Bool} (ha : assemble G F trans gpress h = .ok (h', ok)) {x : Nat → Rat} (hsol : Solves h' x) :
    ∀ r, r < h.A.m → balance G (F.getD noForces) mode trans h'.fgrav (x, r) = 0 := by
  obtain ⟨h1, sing, h'', _, e, hsame, _, hg, _, _, hsing, hres, hns', _⟩ := assemble_cases p hm
  rw [e] at ha
  cases ha
  have := hns' (hsing.2 hns)
  subst this
  intro r hr
  rw [← hres]
  have := solves_iff.1 hsol r (by rw [hsame.A]; exact hr)
  rwa [hsame.A] at this

/-- **Local conservation.**  If some well has a pressure control or there is a pressure condition, then for every solution of the assembled system the computed
fluxes satisfy, for each cell: what leaves through its faces is its source plus what the wells put into it.  (Boundary faces are faces of their cell, so what enters
over the boundary is part of the left-hand side.) -/
theorem fluxes_conserve (p : Problem G F trans gpress h) (hns : SomeBhpWell (F.getD noForces) ∨ SomePressureCond (F.getD noForces)) (hn : PerfsNonneg (F.getD noForces))
    {h' : Data} {ok : Bool} (ha : assemble G F trans gpress h = .ok (h', ok)) {xs : List Rat} (hl : xs.length = h'.A.m) (hsol : Solves h' (vec xs))
    {s : Soln} (hs : SolnOk G (F.getD noForces) s) :
    ∃ s', pressFlux G F trans { h' with x := xs } s = .ok s' ∧
      ∀ c, c < G.nc → G.netOutflow (vec s'.faceFlux) c = srcOf (F.getD noForces) c + wellSource (F.getD noForces) s' c := by
  obtain ⟨mode, hm⟩ := exists_modes p.forces
  obtain ⟨s', e, _, hf⟩ := pressFlux_of p hm ha hl hs
  have hb := bal_zero p hns hm ha hsol
  have st := p.setting
  refine ⟨s', e, fun c hc => ?_⟩
  have h1 := conservation st.valid st.forces hn hf (fun W w hW hw => hb _ (by rw [(st.fits.getD.wells _ W rfl hW).1]; omega)) hc
  rw [hb c (by have := st.fits.nc; omega)] at h1
  show G.netOutflow (fun f => s'.faceFlux.getD f 0) c = _
  linarith

/-- **Flux law.**  Whatever vector `xs` is used, the cell pressures reported are its entries; the flux of an interior face is the transmissibility times the difference
of the cell pressures and gravity pressures; a face with a pressure condition `v` carries the transmissibility times the difference between cell pressure and `v`; a face
with a flux condition carries its value into the cell; other boundary faces carry nothing. -/
theorem flux_law (p : Problem G F trans gpress h) {h' : Data} {ok : Bool} (ha : assemble G F trans gpress h = .ok (h', ok)) {xs : List Rat}
    (hl : xs.length = h'.A.m) {s : Soln} (hs : SolnOk G (F.getD noForces) s) :
    ∃ s', pressFlux G F trans { h' with x := xs } s = .ok s' ∧
      (∀ c, c < G.nc → s'.cellPress.getD c 0 = xs.getD c 0) ∧
      (∀ f a b i1 i2 : Nat, G.Sides f a b → G.HalfFace a f i1 → G.HalfFace b f i2 →
        s'.faceFlux.getD f 0 = trans.getD f 0 * ((s'.cellPress.getD a 0 + gpress.getD i1 0) - (s'.cellPress.getD b 0 + gpress.getD i2 0))) ∧
      (∀ bc v f, (F.getD noForces).bc = some bc → HasCond bc .pressure v f → ∀ c : Nat,
        (G.Sides f c (-1) → s'.faceFlux.getD f 0 = trans.getD f 0 * (s'.cellPress.getD c 0 - v)) ∧
        (G.Sides f (-1) c → s'.faceFlux.getD f 0 = trans.getD f 0 * (v - s'.cellPress.getD c 0))) ∧
      (∀ bc v f, (F.getD noForces).bc = some bc → HasCond bc .fluxTotvol v f → ∀ c : Nat,
        (G.Sides f c (-1) → s'.faceFlux.getD f 0 = -v) ∧ (G.Sides f (-1) c → s'.faceFlux.getD f 0 = v)) ∧
      (∀ f, f < G.nf → ¬ G.Interior f → (∀ bc ty v, (F.getD noForces).bc = some bc → HasCond bc ty v f → ty = .noflow) → s'.faceFlux.getD f 0 = 0) := by
  obtain ⟨mode, hm⟩ := exists_modes p.forces
  obtain ⟨s', e, _, hf⟩ := pressFlux_of p hm ha hl hs
  obtain ⟨h1, sing, h'', _, e', _, _, hg, _⟩ := assemble_cases p hm
  rw [e'] at ha
  cases ha
  have hv := p.valid
  -- a condition on a face, and its place in the lists
  have hcond : ∀ bc ty v f, (F.getD noForces).bc = some bc → HasCond bc ty v f → ∃ i j, i < bc.nbc ∧ bc.condPos.getD i 0 ≤ j ∧ j < bc.condPos.getD (i + 1) 0 ∧
      bface bc j = f ∧ bc.type.getD i .noflow = ty ∧ bc.value.getD i 0 = v ∧ s'.faceFlux.getD f 0 = bsign G bc j * bcIn G bc trans (vec xs) i j := by
    rintro bc ty v f hB ⟨i, j, a, b, hi, hty, hv', ha, hb, h1, h2, h3⟩
    have hj1 : bc.condPos.getD i 0 ≤ j := by rw [getD_of_getElem? ha]; exact h1
    have hj2 : j < bc.condPos.getD (i + 1) 0 := by rw [getD_of_getElem? hb]; exact h2
    have hbf : bface bc j = f := by unfold bface; rw [getD_of_getElem? h3]; simp
    exact ⟨i, j, hi, hj1, hj2, hbf, getD_of_getElem? hty, getD_of_getElem? hv', by rw [← hbf]; exact hf.bc bc hB i j hi hj1 hj2⟩
  have hside : ∀ bc i j, (F.getD noForces).bc = some bc → i < bc.nbc → j < bc.condPos.getD (i + 1) 0 → ∀ c : Nat,
      (G.Sides (bface bc j) c (-1) → bsign G bc j = -1 ∧ bcell G bc j = c) ∧ (G.Sides (bface bc j) (-1) c → bsign G bc j = 1 ∧ bcell G bc j = c) := by
    intro bc i j hB hi hj c
    have hbo := p.forces.bc bc hB
    obtain ⟨a, b, _, hs', _, _, _, hab⟩ := bcFace_ok hv hbo (hbo.pos.lt_total hi hj)
    have hsg : bsign G bc j = if a < 0 then 1 else -1 := by unfold bsign; rw [getD_of_getElem? hs'.1]
    constructor
    · intro h
      obtain ⟨e1, e2⟩ := hs'.unique h
      exact ⟨by rw [hsg, if_neg (by omega)], by omega⟩
    · intro h
      obtain ⟨e1, e2⟩ := hs'.unique h
      exact ⟨by rw [hsg, if_pos (by omega)], by omega⟩
  refine ⟨s', e, hf.cell, ?_, ?_, ?_, ?_⟩
  · intro f a b i1 i2 hsd hi1 hi2
    obtain ⟨ra, rb⟩ := hv.side_range hsd
    have hface : s'.faceFlux.getD f 0 = intFlux G trans h'.fgrav (vec xs) f := by
      refine hf.face f (hsd.lt hv) fun bc hB j hj e => ?_
      subst e
      exact bc_not_interior hv (p.forces.bc bc hB) hj ⟨a, b, hsd⟩
    rw [hface, hf.cell a (by omega), hf.cell b (by omega)]
    unfold intFlux
    rw [getD_of_getElem? hsd.1, getD_of_getElem? hsd.2, if_pos (by omega), hg.interior f a b i1 i2 hsd hi1 hi2, Int.toNat_natCast, Int.toNat_natCast]
    ring
  · intro bc v f hB hc c
    obtain ⟨i, j, hi, hj1, hj2, rfl, hty, hval, hq⟩ := hcond bc _ v f hB hc
    obtain ⟨g1, g2⟩ := hside bc i j hB hi hj2 c
    unfold bcIn at hq
    rw [hty] at hq
    simp only [hval] at hq
    constructor
    · intro hsd
      obtain ⟨e1, e2⟩ := g1 hsd
      have := hv.side_range hsd
      rw [hq, e1, e2, hf.cell c (by omega)]
      ring
    · intro hsd
      obtain ⟨e1, e2⟩ := g2 hsd
      have := hv.side_range hsd
      rw [hq, e1, e2, hf.cell c (by omega)]
      ring
  · intro bc v f hB hc c
    obtain ⟨i, j, hi, hj1, hj2, rfl, hty, hval, hq⟩ := hcond bc _ v f hB hc
    obtain ⟨g1, g2⟩ := hside bc i j hB hi hj2 c
    unfold bcIn at hq
    rw [hty] at hq
    simp only [hval] at hq
    exact ⟨fun hsd => by rw [hq, (g1 hsd).1]; ring, fun hsd => by rw [hq, (g2 hsd).1]; ring⟩
  · intro f hlt hni hno
    by_cases hex : ∃ bc j, (F.getD noForces).bc = some bc ∧ j < bc.condPos.getD bc.nbc 0 ∧ bface bc j = f
    · obtain ⟨bc, j, hB, hj, rfl⟩ := hex
      have hbo := p.forces.bc bc hB
      obtain ⟨i, hi, hj1, hj2⟩ := hbo.pos.exists_row hj
      obtain ⟨_, _, _, _, _, hface, _⟩ := bcFace_ok hv hbo hj
      have hti : bc.type[i]? = some (bc.type.getD i .noflow) := by
        have := hbo.type
        rw [List.getD_eq_getElem?_getD, List.getElem?_eq_getElem (by omega)]; rfl
      have := hno bc _ _ hB ⟨i, j, _, _, hi, hti, getElem?_getD (by have := hbo.value; omega), hbo.pos.get (by omega), hbo.pos.get (c := i + 1) hi, hj1, hj2, hface⟩
      rw [hf.bc bc hB i j hi hj1 hj2]
      unfold bcIn
      rw [this]
      simp
    · rw [hf.face f hlt fun bc hB j hj e => hex ⟨bc, j, hB, hj, e⟩]
      exact intFlux_boundary hv _ _ _ hlt hni

/-- The laws of the wells, from their equations. -/
theorem wells_of_rows (p : Problem G F trans gpress h) (hn : PerfsNonneg (F.getD noForces)) {mode : Nat → WellMode} (hm : Modes (F.getD noForces) mode) {h' : Data} {ok : Bool}
    (ha : assemble G F trans gpress h = .ok (h', ok)) {xs : List Rat} (hl : xs.length = h'.A.m) {s : Soln} (hs : SolnOk G (F.getD noForces) s)
    {W : Wells.W} (hW : (F.getD noForces).wells = some W) {pr : List Rat} (hpr : s.wellPress = some pr)
    (hb : ∀ w, w < W.nw → balance G (F.getD noForces) mode trans h'.fgrav (vec xs, G.nc + w) = 0) :
    ∃ s' pr', pressFlux G F trans { h' with x := xs } s = .ok s' ∧ s'.wellPress = some pr' ∧ ∀ w, w < W.nw →
      (∀ t, HasMode W w (.bhp t) → (∃ i c, IsPerf W w i c ∧ 0 < perfTrans (F.getD noForces) W i) → pr'.getD w 0 = t) ∧
      (∀ t, HasMode W w (.bhp t) → ∀ i c, IsPerf W w i c →
        s'.perfFlux i = perfTrans (F.getD noForces) W i * (t + ((F.getD noForces).wdp.getD []).getD i 0 - s'.cellPress.getD c 0)) ∧
      (∀ q, HasMode W w (.rate q) → wellOutflow W s'.perfFlux w = q) ∧
      (∀ q, HasMode W w (.rate q) → ∀ i c, IsPerf W w i c →
        s'.perfFlux i = perfTrans (F.getD noForces) W i * (pr'.getD w 0 + ((F.getD noForces).wdp.getD []).getD i 0 - s'.cellPress.getD c 0)) ∧
      (HasMode W w .shut → pr'.getD w 0 = pr.getD w 0 ∧ ∀ i c, IsPerf W w i c → s'.perfFlux i = 0) := by
  obtain ⟨s', e, _, hf⟩ := pressFlux_of p hm ha hl hs
  have st := p.setting
  have hWo := (st.forces.wells W hW).1
  obtain ⟨pr', epr, hpr'⟩ := hf.well W pr hW hpr
  have hper : ∀ w i c, w < W.nw → IsPerf W w i c → W.connpos.getD w 0 ≤ i ∧ i < W.connpos.getD (w + 1) 0 ∧ pcell W i = c ∧ c < G.nc := by
    rintro w i c hw ⟨a, b, h1, h2, h3, h4, h5⟩
    have e1 : W.connpos.getD (w + 1) 0 = b := getD_of_getElem? h2
    have e2 : pcell W i = c := by unfold pcell; rw [getD_of_getElem? h5]; simp
    exact ⟨by rw [getD_of_getElem? h1]; exact h3, by rw [e1]; exact h4, e2, by rw [← e2]; exact pcell_lt hWo hw (by rw [e1]; exact h4)⟩
  refine ⟨s', pr', e, epr, fun w hw => ⟨?_, ?_, ?_, ?_, ?_⟩⟩
  · rintro t ht ⟨i, c, hp, hpos⟩
    have hmo := mode_unique (hm W hW w hw) ht
    obtain ⟨g1, g2, _⟩ := hper w i c hw hp
    rw [hpr' w hw, hmo, if_neg (by simp)]
    rcases bhp_row st.valid st.forces hW hn hw hmo (hb w hw) i g1 g2 with h | h
    · rw [perfTrans_eq, h] at hpos
      exact absurd hpos (lt_irrefl _)
    · exact h
  · intro t ht i c hp
    have hmo := mode_unique (hm W hW w hw) ht
    obtain ⟨g1, g2, g3, g4⟩ := hper w i c hw hp
    rw [hf.perf W hW w i hw g1 g2, aFlux_eq_pFlux st.valid st.forces hW hn hw (hb w hw) g1 g2, hmo, hf.cell c g4]
    simp only [pFlux, g3]
    rfl
  · intro q hq
    have hmo := mode_unique (hm W hW w hw) hq
    have hrow := hb w hw
    rw [balance_well st.valid st.forces hW mode trans _ _ hw, hmo] at hrow
    unfold wellOutflow
    have : ∀ i ∈ Finset.Ico (W.connpos.getD w 0) (W.connpos.getD (w + 1) 0),
        s'.perfFlux i = -(pRow G.nc W (mtOf (F.getD noForces)) (wdpOf (F.getD noForces)) (.rate q) (vec xs) w i) := by
      intro i hi
      rw [Finset.mem_Ico] at hi
      rw [hf.perf W hW w i hw hi.1 hi.2, hmo]
      simp only [aFlux, pRow, neg_neg]
    rw [Finset.sum_congr rfl this, Finset.sum_neg_distrib]
    simp only [target] at hrow
    linarith
  · intro q hq i c hp
    have hmo := mode_unique (hm W hW w hw) hq
    obtain ⟨g1, g2, g3, g4⟩ := hper w i c hw hp
    rw [hf.perf W hW w i hw g1 g2, hmo, hf.cell c g4, hpr' w hw, hmo, if_neg (by simp)]
    simp only [aFlux, g3]
    rfl
  · intro hsh
    have hmo := mode_unique (hm W hW w hw) hsh
    refine ⟨by rw [hpr' w hw, if_pos hmo], fun i c hp => ?_⟩
    obtain ⟨g1, g2, g3, g4⟩ := hper w i c hw hp
    rw [hf.perf W hW w i hw g1 g2, hmo]
    rfl

/-- **Well constraints.**  In every solution: a pressure controlled well with a connection of positive transmissibility has its target pressure; the perforation fluxes of
a rate controlled well add up to its target; the perforations of a shut well carry nothing, and its reported pressure is left alone.  The flux of a perforation of an open
well is its transmissibility times the drawdown. -/
theorem well_constraints (p : Problem G F trans gpress h) (hn : PerfsNonneg (F.getD noForces)) {h' : Data} {ok : Bool}
    (ha : assemble G F trans gpress h = .ok (h', ok)) {xs : List Rat} (hl : xs.length = h'.A.m) (hsol : Solves h' (vec xs)) {s : Soln} (hs : SolnOk G (F.getD noForces) s)
    {W : Wells.W} (hW : (F.getD noForces).wells = some W) {pr : List Rat} (hpr : s.wellPress = some pr) :
    ∃ s' pr', pressFlux G F trans { h' with x := xs } s = .ok s' ∧ s'.wellPress = some pr' ∧ ∀ w, w < W.nw →
      (∀ t, HasMode W w (.bhp t) → (∃ i c, IsPerf W w i c ∧ 0 < perfTrans (F.getD noForces) W i) → pr'.getD w 0 = t) ∧
      (∀ t, HasMode W w (.bhp t) → ∀ i c, IsPerf W w i c →
        s'.perfFlux i = perfTrans (F.getD noForces) W i * (t + ((F.getD noForces).wdp.getD []).getD i 0 - s'.cellPress.getD c 0)) ∧
      (∀ q, HasMode W w (.rate q) → wellOutflow W s'.perfFlux w = q) ∧
      (∀ q, HasMode W w (.rate q) → ∀ i c, IsPerf W w i c →
        s'.perfFlux i = perfTrans (F.getD noForces) W i * (pr'.getD w 0 + ((F.getD noForces).wdp.getD []).getD i 0 - s'.cellPress.getD c 0)) ∧
      (HasMode W w .shut → pr'.getD w 0 = pr.getD w 0 ∧ ∀ i c, IsPerf W w i c → s'.perfFlux i = 0) := by
  obtain ⟨mode, hm⟩ := exists_modes p.forces
  have st := p.setting
  have hmw := (st.fits.getD.wells _ W rfl hW).1
  -- the equations of the wells hold in both cases
  have hb : ∀ w, w < W.nw → balance G (F.getD noForces) mode trans h'.fgrav (vec xs, G.nc + w) = 0 := by
    obtain ⟨h1, sing, h'', _, e, hsame, hsame1, hg, _, hbb, hsing, hres, hns', hdb⟩ := assemble_cases p hm
    have ha' := ha
    rw [e] at ha'
    cases ha'
    intro w hw
    have hsol' := solves_iff.1 hsol (G.nc + w) (by rw [hsame.A, hmw]; omega)
    rw [hsame.A] at hsol'
    rw [← hres]
    cases hsg : sing with
    | false => have := hns' hsg; subst this; exact hsol'
    | true =>
      obtain ⟨W', hW', hp⟩ := st.pattern
      have he := hp.first_elm st.valid st.nonempty hW'
      have hd := double_first st.fits.mat he (s := ⟨h1.sa, h1.b⟩) ⟨by rw [hsame1.sa]; exact st.data.sa, by rw [hsame1.b]; exact st.data.b⟩ (vec xs, G.nc + w)
      rw [if_neg (by have := st.nonempty; simp; omega), sub_zero] at hd
      rw [← hd]
      rw [hdb hsg, ← hbb] at hsol'
      exact hsol'
  exact wells_of_rows p hn hm ha hl hs hW hpr hb

/-- A shut well does not influence anything: its unknown does not occur in any equation but its own. -/
theorem shut_well_decoupled (p : Problem G F trans gpress h) {h' : Data} {ok : Bool} (ha : assemble G F trans gpress h = .ok (h', ok))
    {W : Wells.W} (hW : (F.getD noForces).wells = some W) {w : Nat} (hw : w < W.nw) (hsh : HasMode W w .shut) {x x' : Nat → Rat}
    (hx : ∀ k, k ≠ G.nc + w → x k = x' k) {r : Nat} (hr : r ≠ G.nc + w) : rowDot h'.A h'.sa x r = rowDot h'.A h'.sa x' r := by
  obtain ⟨mode, hm⟩ := exists_modes p.forces
  have st := p.setting
  have hWo := (st.forces.wells W hW).1
  have hmo := mode_unique (hm W hW w hw) hsh
  obtain ⟨h1, sing, h'', _, e, hsame, hsame1, hg, _, hbb, hsing, hres, hns', hdb⟩ := assemble_cases p hm
  rw [e] at ha
  cases ha
  have hcell : ∀ c, c < G.nc → x c = x' c := fun c hc => hx c (by omega)
  have hbal : balance G (F.getD noForces) mode trans h'.fgrav (x, r) = balance G (F.getD noForces) mode trans h'.fgrav (x', r) := by
    have e1 : ∀ f, f < G.nf → intFlux G trans h'.fgrav x f = intFlux G trans h'.fgrav x' f := by
      intro f hf
      obtain ⟨a, b, hs⟩ := p.valid.sides hf
      obtain ⟨ra, rb⟩ := p.valid.side_range hs
      unfold intFlux
      rw [getD_of_getElem? hs.1, getD_of_getElem? hs.2]
      split
      · rw [hcell a.toNat (by omega), hcell b.toNat (by omega)]
      · rfl
    have e2 : bcsSum G (F.getD noForces) trans (x, r) = bcsSum G (F.getD noForces) trans (x', r) := by
      unfold bcsSum
      cases hB : (F.getD noForces).bc with
      | none => rfl
      | some bc =>
        have hbo := p.forces.bc bc hB
        show bcSum G bc trans (x, r) = bcSum G bc trans (x', r)
        unfold bcSum
        refine Finset.sum_congr rfl fun i hi => Finset.sum_congr rfl fun j hj => ?_
        rw [Finset.mem_range] at hi
        rw [Finset.mem_Ico] at hj
        obtain ⟨_, _, _, _, _, _, hc, _⟩ := bcFace_ok p.valid hbo (hbo.pos.lt_total hi hj.2)
        unfold bcIn
        simp only [hcell _ hc]
    have e3 : wellsSum G.nc (F.getD noForces) mode (x, r) = wellsSum G.nc (F.getD noForces) mode (x', r) := by
      unfold wellsSum
      rw [hW]
      simp only []
      refine Finset.sum_congr rfl fun w' hw' => ?_
      rw [Finset.mem_range] at hw'
      unfold wellTerm
      congr 1
      refine Finset.sum_congr rfl fun i hi => ?_
      rw [Finset.mem_Ico] at hi
      have hc := hcell _ (pcell_lt hWo hw' hi.2)
      by_cases ew : w' = w
      · subst ew
        rw [hmo]
        simp only [pFlux, if_neg hr]
      · have hxw : x (G.nc + w') = x' (G.nc + w') := hx _ (by omega)
        cases mode w' <;> simp only [pFlux, pRow, hc, hxw]
    unfold balance
    simp only [netOutflow_congr e1, e2, e3]
  have hres1 := hres (x, r)
  have hres2 := hres (x', r)
  rw [hbal, ← hres2] at hres1
  have hrow1 : rowDot h.A h1.sa x r = rowDot h.A h1.sa x' r := by
    unfold Res at hres1
    simp only at hres1
    linarith
  rw [hsame.A]
  cases hsg : sing with
  | false => have := hns' hsg; subst this; exact hrow1
  | true =>
    obtain ⟨W', hW', hp⟩ := st.pattern
    have he := hp.first_elm st.valid st.nonempty hW'
    rw [hdb hsg, show h1.sa.getD 0 0 * 2 = h1.sa.getD 0 0 + h1.sa.getD 0 0 by ring, rowDot_set st.fits.mat (by rw [hsame1.sa]; exact st.data.sa) he,
      rowDot_set st.fits.mat (by rw [hsame1.sa]; exact st.data.sa) he, hrow1, hx 0 (by have := st.nonempty; omega)]

/-- **Singular systems.**  Without any pressure control or pressure condition, if everything injected adds up to zero, transmissibilities are not negative and cell 0 has a
neighbour across a face of positive transmissibility, every solution of the modified system has pressure zero in cell 0, solves the unmodified system, and its fluxes are
conservative. -/
theorem singular_system_fixed (p : Problem G F trans gpress h) (hns : ¬ SomeBhpWell (F.getD noForces)) (hnp : ¬ SomePressureCond (F.getD noForces))
    (htot : totalInflow G (F.getD noForces) = 0) (hn : PerfsNonneg (F.getD noForces)) (ht : ∀ f, f < G.nf → 0 ≤ trans.getD f 0)
    {f0 b : Nat} (hf0 : f0 < G.nf) (hpos : 0 < trans.getD f0 0) (hs0 : G.Sides f0 0 b ∨ G.Sides f0 b 0)
    {h' : Data} {ok : Bool} (ha : assemble G F trans gpress h = .ok (h', ok)) {xs : List Rat} (hl : xs.length = h'.A.m) (hsol : Solves h' (vec xs)) :
    xs.getD 0 0 = 0 ∧ (∃ h1, assembleIncompressible G F trans gpress h = .ok (h1, true, true) ∧ Solves h1 (vec xs)) ∧
    ∀ s, SolnOk G (F.getD noForces) s → ∃ s', pressFlux G F trans { h' with x := xs } s = .ok s' ∧
      ∀ c, c < G.nc → G.netOutflow (vec s'.faceFlux) c = srcOf (F.getD noForces) c + wellSource (F.getD noForces) s' c := by
  obtain ⟨mode, hm⟩ := exists_modes p.forces
  have st := p.setting
  have hnc := st.fits.nc
  have hne := st.nonempty
  have ha' := ha
  obtain ⟨h1, sing, h'', e1, e, hsame, hsame1, hg, hfg, hbb, hsing, hres, hns', hdb⟩ := assemble_cases p hm
  rw [e] at ha
  cases ha
  have hsg : sing = true := by
    cases hsg : sing with
    | true => rfl
    | false => rcases hsing.1 hsg with h | h
               · exact absurd h hns
               · exact absurd h hnp
  have hsa := hdb hsg
  obtain ⟨W', hW', hp⟩ := st.pattern
  have he := hp.first_elm st.valid st.nonempty hW'
  have hok1 : SysOk h.A ⟨h1.sa, h1.b⟩ := ⟨by rw [hsame1.sa]; exact st.data.sa, by rw [hsame1.b]; exact st.data.b⟩
  have hd := double_first st.fits.mat he hok1
  -- the equations
  have heq : ∀ r, r < h.A.m → balance G (F.getD noForces) mode trans h'.fgrav (vec xs, r) = if r = 0 then h1.sa.getD 0 0 * xs.getD 0 0 else 0 := by
    intro r hr
    have hsol' := solves_iff.1 hsol r (by rw [hsame.A]; exact hr)
    rw [hsame.A, hsa, ← hbb, hd (vec xs, r), hres] at hsol'
    simp only [vec] at hsol' ⊢
    linarith
  have hwell : ∀ W w, (F.getD noForces).wells = some W → w < W.nw → balance G (F.getD noForces) mode trans h'.fgrav (vec xs, G.nc + w) = 0 := by
    intro W w hW hw
    rw [heq _ (by rw [(st.fits.getD.wells _ W rfl hW).1]; omega), if_neg (by omega)]
  have hsum := sum_balance st.valid st.forces hm (fun h => hns ((someBhp_iff hm).1 h)) hnp hwell
  rw [htot, Finset.sum_congr rfl (fun c hc => heq c (by have := Finset.mem_range.1 hc; omega)), Finset.sum_ite_eq', if_pos (Finset.mem_range.2 hne)] at hsum
  -- the first element
  have hfirst : h1.sa.getD 0 0 ≠ 0 := by
    have hlt := first_pos (mode := mode) (fg := h'.fgrav) st.valid ht hn hf0 hpos hs0 st.forces hne
    rw [← hres, ← hres] at hlt
    unfold Res at hlt
    simp only [rowDot_delta hp st.valid hne hW'] at hlt
    have hz : rowDot h.A h1.sa (fun _ => 0) 0 = 0 := by unfold rowDot; simp
    rw [hz] at hlt
    intro e
    rw [e] at hlt
    exact absurd hlt (lt_irrefl _)
  have hx0 : xs.getD 0 0 = 0 := by
    rcases mul_eq_zero.1 hsum with h | h
    · exact absurd h hfirst
    · exact h
  have hbal : ∀ r, r < h.A.m → balance G (F.getD noForces) mode trans h'.fgrav (vec xs, r) = 0 := by
    intro r hr
    rw [heq r hr, hx0, mul_zero, ite_self]
  refine ⟨hx0, ⟨h1, by rw [e1, hsg], solves_iff.2 fun r hr => ?_⟩, fun s hs => ?_⟩
  · rw [hsame1.A] at hr ⊢
    rw [hres]
    exact hbal r hr
  · obtain ⟨s', es, _, hf⟩ := pressFlux_of p hm ha' hl hs
    refine ⟨s', es, fun c hc => ?_⟩
    have hcons := conservation st.valid st.forces hn hf hwell hc
    rw [hbal c (by omega)] at hcons
    show G.netOutflow (fun f => s'.faceFlux.getD f 0) c = _
    linarith

/-! ## Solvability -/

/-- The solver data have an unknown for every cell and every well of the driving forces, and no others. -/
def Sized (G : GridTopo) (F : Forces) (h : Data) : Prop := h.A.m = G.nc + numWells F.wells

theorem all_equal {F : Forces} (hA : Sized G F h) (hwc : WellsConnected F) (hF : ForcesOk G F) {K : Nat → Prop} (hall : ∀ c, c < G.nc → Anchored G F trans K c) {x y : Nat → Rat}
    (hd : (∀ c, Anchored G F trans K c → x c = y c) ∧
      (∀ W w, F.wells = some W → w < W.nw → ∀ i c, IsPerf W w i c → 0 < perfTrans F W i → Anchored G F trans K c → x (G.nc + w) = y (G.nc + w))) :
    ∀ k, k < h.A.m → x k = y k := by
  intro k hk
  unfold Sized at hA
  rw [hA] at hk
  by_cases hc : k < G.nc
  · exact hd.1 k (hall k hc)
  · cases hW : F.wells with
    | none => rw [hW] at hk; exact absurd hk (by unfold numWells; omega)
    | some W =>
      rw [hW] at hk
      unfold numWells at hk
      simp only at hk
      obtain ⟨i, c, hp, hpos⟩ := hwc W (k - G.nc) hW (by omega)
      have := hd.2 W (k - G.nc) hW (by omega) i c hp hpos (hall c (isPerf_lt (hF.wells W hW).1 hp (by omega)).2)
      rwa [show G.nc + (k - G.nc) = k by omega] at this

/-- A list of the first values of a function, for `ifs_tpfa_press_flux`. -/
theorem as_list (x : Nat → Rat) (n : Nat) : ∃ xs : List Rat, xs.length = n ∧ ∀ k, k < n → xs.getD k 0 = x k :=
  ⟨(List.range n).map x, by simp, fun k hk => by simp [List.getD_eq_getElem?_getD, hk]⟩

theorem solves_congr (hh : ∀ r p, r < h.A.m → h.A.ia.getD r 0 ≤ p → p < h.A.ia.getD (r + 1) 0 → h.A.ja.getD p 0 < h.A.m) {x y : Nat → Rat}
    (he : ∀ k, k < h.A.m → x k = y k) (hx : Solves h x) : Solves h y := by
  intro r hr
  rw [← hx r hr]
  unfold rowDot
  refine Finset.sum_congr rfl fun p hp => ?_
  rw [Finset.mem_Ico] at hp
  rw [he _ (hh r p hr hp.1 hp.2)]

theorem cols_lt (p : Problem G F trans gpress h) : ∀ r q, r < h.A.m → h.A.ia.getD r 0 ≤ q → q < h.A.ia.getD (r + 1) 0 → h.A.ja.getD q 0 < h.A.m := by
  obtain ⟨W, hW, hp⟩ := p.setting.pattern
  exact fun r q hr h1 h2 => (hp.col_lt p.valid hW hr h1 h2).2

/-- **The pressure system has exactly one solution** if transmissibilities are not negative, every cell is linked to a pressure condition or to a well at given bottom-hole
pressure, and every well has a connection of positive transmissibility. -/
theorem pressure_system_regular (p : Problem G F trans gpress h) (ht : ∀ f, f < G.nf → 0 ≤ trans.getD f 0) (hn : PerfsNonneg (F.getD noForces))
    (hall : ∀ c, c < G.nc → Anchored G (F.getD noForces) trans (fun _ => False) c) (hwc : WellsConnected (F.getD noForces)) (hz : Sized G (F.getD noForces) h)
    {h' : Data} {ok : Bool} (ha : assemble G F trans gpress h = .ok (h', ok)) :
    (∃ xs : List Rat, xs.length = h'.A.m ∧ Solves h' (vec xs)) ∧ ∀ x y, Solves h' x → Solves h' y → ∀ k, k < h'.A.m → x k = y k := by
  obtain ⟨mode, hm⟩ := exists_modes p.forces
  have st := p.setting
  obtain ⟨h1, sing, h'', e1, e, hsame, hsame1, hg, hfg, hbb, hsing, hres, hns', hdb⟩ := assemble_cases p hm
  rw [e] at ha
  cases ha
  have hns : SomeBhpWell (F.getD noForces) ∨ SomePressureCond (F.getD noForces) := by
    have h0 := hall 0 p.nonempty
    generalize 0 = c at h0
    induction h0 with
    | given hK => exact hK.elim
    | cond hB hc _ _ => exact Or.inr ⟨_, hc.choose, hB, hc.choose_spec.choose_spec.choose_spec.choose_spec.1, hc.choose_spec.choose_spec.choose_spec.choose_spec.2.1⟩
    | bhp hW hw hm _ _ => exact Or.inl ⟨_, _, _, hW, hw, hm⟩
    | face _ _ _ ih => exact ih
    | well _ _ _ _ _ _ _ _ ih => exact ih
  have hh := hns' (hsing.2 hns)
  subst hh
  have hm' : h'.A = h.A := hsame.A
  have huniq : ∀ x y : Nat → Rat, (∀ r, r < h.A.m → rowDot h.A h'.sa x r = rowDot h.A h'.sa y r) → ∀ k, k < h.A.m → x k = y k := by
    intro x y he
    have hd := determined (κ := fun _ => 0) (fg := h'.fgrav) (mode := mode) st.valid st.forces hm ht hn (fun _ _ => le_refl _) st.fits.nc (fun W hW => (st.fits.getD.wells _ W rfl hW).1) (fun _ => 0)
      (by
        intro x y r _
        simp only [zero_add, zero_mul, ite_self, sub_zero]
        rw [← hres, ← hres]
        unfold Res
        ring) he
    exact all_equal (h := h) hz hwc st.forces (fun c hc => (hall c hc).mono fun _ h => h.elim) hd
  constructor
  · obtain ⟨x, hx⟩ := rowDot_solvable huniq (fun r => h'.b.getD r 0)
    obtain ⟨xs, hl, hxs⟩ := as_list x h.A.m
    refine ⟨xs, by rw [hm']; exact hl, solves_congr (h := h') (by rw [hm']; exact cols_lt p) (fun k hk => (hxs k (by rw [← hm']; exact hk)).symm) ?_⟩
    intro r hr
    rw [hm'] at hr ⊢
    exact hx r hr
  · intro x y hx hy k hk
    rw [hm'] at hk
    refine huniq x y (fun r hr => ?_) k hk
    have h1 := hx r (by rw [hm']; exact hr)
    have h2 := hy r (by rw [hm']; exact hr)
    rw [hm'] at h1 h2
    rw [h1, h2]

/-- **The modified singular system has exactly one solution** if every cell is linked to cell 0 and cell 0 has a neighbour across a face of positive transmissibility. -/
theorem singular_system_regular (p : Problem G F trans gpress h) (hns : ¬ SomeBhpWell (F.getD noForces)) (hnp : ¬ SomePressureCond (F.getD noForces))
    (ht : ∀ f, f < G.nf → 0 ≤ trans.getD f 0) (hn : PerfsNonneg (F.getD noForces)) {f0 b : Nat} (hf0 : f0 < G.nf) (hpos : 0 < trans.getD f0 0)
    (hs0 : G.Sides f0 0 b ∨ G.Sides f0 b 0) (hall : ∀ c, c < G.nc → Anchored G (F.getD noForces) trans (· = 0) c) (hwc : WellsConnected (F.getD noForces))
    (hz : Sized G (F.getD noForces) h) {h' : Data} {ok : Bool} (ha : assemble G F trans gpress h = .ok (h', ok)) :
    (∃ xs : List Rat, xs.length = h'.A.m ∧ Solves h' (vec xs)) ∧ ∀ x y, Solves h' x → Solves h' y → ∀ k, k < h'.A.m → x k = y k := by
  obtain ⟨mode, hm⟩ := exists_modes p.forces
  have st := p.setting
  have hne := st.nonempty
  obtain ⟨h1, sing, h'', e1, e, hsame, hsame1, hg, hfg, hbb, hsing, hres, hns', hdb⟩ := assemble_cases p hm
  rw [e] at ha
  cases ha
  have hsg : sing = true := by
    cases hsg : sing with
    | true => rfl
    | false => rcases hsing.1 hsg with h | h
               · exact absurd h hns
               · exact absurd h hnp
  have hsa := hdb hsg
  obtain ⟨W', hW', hp⟩ := st.pattern
  have he := hp.first_elm st.valid st.nonempty hW'
  have hok1 : SysOk h.A ⟨h1.sa, h1.b⟩ := ⟨by rw [hsame1.sa]; exact st.data.sa, by rw [hsame1.b]; exact st.data.b⟩
  have hd := double_first st.fits.mat he hok1
  have hfirst : 0 < h1.sa.getD 0 0 := by
    have hlt := first_pos (mode := mode) (fg := h'.fgrav) st.valid ht hn hf0 hpos hs0 st.forces hne
    rw [← hres, ← hres] at hlt
    unfold Res at hlt
    simp only [rowDot_delta hp st.valid hne hW'] at hlt
    have hz : rowDot h.A h1.sa (fun _ => 0) 0 = 0 := by unfold rowDot; simp
    rw [hz] at hlt
    linarith
  have hm' : h'.A = h.A := hsame.A
  have huniq : ∀ x y : Nat → Rat, (∀ r, r < h.A.m → rowDot h.A h'.sa x r = rowDot h.A h'.sa y r) → ∀ k, k < h.A.m → x k = y k := by
    intro x y heq
    have hdet := determined (κ := fun c => if c = 0 then h1.sa.getD 0 0 else 0) (fg := h'.fgrav) (mode := mode) st.valid st.forces hm ht hn
      (fun c _ => by split; exact le_of_lt hfirst; exact le_refl _) st.fits.nc (fun W hW => (st.fits.getD.wells _ W rfl hW).1) (fun _ => 0)
      (by
        intro x y r _
        simp only [zero_add]
        rw [← hres, ← hres]
        have hx := hd (x, r)
        have hy := hd (y, r)
        rw [← hsa] at hx hy
        have ex : Res h.A ⟨h'.sa, h1.b⟩ (x, r) = h1.b.getD r 0 - rowDot h.A h'.sa x r := rfl
        have ey : Res h.A ⟨h'.sa, h1.b⟩ (y, r) = h1.b.getD r 0 - rowDot h.A h'.sa y r := rfl
        rw [ex] at hx
        rw [ey] at hy
        by_cases hr : r = 0
        · subst hr
          simp only [if_true, if_pos hne] at hx hy ⊢
          linarith
        · simp only [if_neg hr, zero_mul, ite_self, sub_zero] at hx hy ⊢
          linarith) heq
    exact all_equal (h := h) hz hwc st.forces (fun c hc => (hall c hc).mono fun c h => ⟨by rw [h]; exact hne, by simp only [if_pos h]; exact hfirst⟩) hdet
  constructor
  · obtain ⟨x, hx⟩ := rowDot_solvable huniq (fun r => h'.b.getD r 0)
    obtain ⟨xs, hl, hxs⟩ := as_list x h.A.m
    refine ⟨xs, by rw [hm']; exact hl, solves_congr (h := h') (by rw [hm']; exact cols_lt p) (fun k hk => (hxs k (by rw [← hm']; exact hk)).symm) ?_⟩
    intro r hr
    rw [hm'] at hr ⊢
    exact hx r hr
  · intro x y hx hy k hk
    rw [hm'] at hk
    refine huniq x y (fun r hr => ?_) k hk
    have h1 := hx r (by rw [hm']; exact hr)
    have h2 := hy r (by rw [hm']; exact hr)
    rw [hm'] at h1 h2
    rw [h1, h2]

/-! ## Compressible rock -/

/-- What the fluxes computed from `xs` satisfy. -/
theorem flux_balance (p : Problem G F trans gpress h) (hn : PerfsNonneg (F.getD noForces)) {mode : Nat → WellMode} (hm : Modes (F.getD noForces) mode) {h' : Data}
    (hsame : SameShape h h') (hg : GravOk G gpress h'.fgrav) {xs : List Rat} (hl : xs.length = h'.A.m) {s : Soln} (hs : SolnOk G (F.getD noForces) s)
    (hb : ∀ W w, (F.getD noForces).wells = some W → w < W.nw → balance G (F.getD noForces) mode trans h'.fgrav (vec xs, G.nc + w) = 0) :
    ∃ s', pressFlux G F trans { h' with x := xs } s = .ok s' ∧
      ∀ c, c < G.nc → G.netOutflow (vec s'.faceFlux) c =
        srcOf (F.getD noForces) c + wellSource (F.getD noForces) s' c - balance G (F.getD noForces) mode trans h'.fgrav (vec xs, c) := by
  have st := p.setting
  have hxm : xs.length = h.A.m := by rw [hl, hsame.A]
  obtain ⟨s', e, _, hf⟩ := pressFlux_ok st.valid st.forces hm st.sizes.trans (h := { h' with x := xs }) hg.len hg.boundary (by show _ ≤ xs.length; rw [hxm]; exact st.fits.nc)
    (fun W hW => by show _ ≤ xs.length; rw [hxm, (st.fits.getD.wells _ W rfl hW).1]) hs
  refine ⟨s', e, fun c hc => ?_⟩
  have h1 := conservation st.valid st.forces hn hf hb hc
  show G.netOutflow (fun f => s'.faceFlux.getD f 0) c = _
  linarith

/-- **Conservation with compressible rock.**  For every solution of the system assembled for compressible rock, what leaves a cell is its source, plus what the wells put in,
minus the change of pore volume over the time step to first order: pore volume times rock compressibility times pressure change, divided by the time step. -/
theorem comprock_conserves (p : Problem G F trans gpress h) (hn : PerfsNonneg (F.getD noForces)) {porevol rockComp pressure : List Rat} {dt : Rat} (hdt : dt ≠ 0)
    (h1 : G.nc ≤ porevol.length) (h2 : G.nc ≤ rockComp.length) (h3 : G.nc ≤ pressure.length) :
    ∃ h', assembleComprock G F trans gpress porevol rockComp dt pressure h = .ok (h', true) ∧ Problem G F trans gpress h' ∧
      ∀ xs : List Rat, xs.length = h'.A.m → Solves h' (vec xs) → ∀ s, SolnOk G (F.getD noForces) s →
        ∃ s', pressFlux G F trans { h' with x := xs } s = .ok s' ∧ ∀ c, c < G.nc → G.netOutflow (vec s'.faceFlux) c =
          srcOf (F.getD noForces) c + wellSource (F.getD noForces) s' c - porevol.getD c 0 * rockComp.getD c 0 * (xs.getD c 0 - pressure.getD c 0) / dt := by
  obtain ⟨mode, hm⟩ := exists_modes p.forces
  have st := p.setting
  obtain ⟨h', e, hsame, hg, hres⟩ := assembleComprock_ok st hm hdt h1 h2 h3
  refine ⟨h', e, p.of_same hsame, fun xs hl hsol s hs => ?_⟩
  have hz : ∀ r, r < h.A.m → Res h.A ⟨h'.sa, h'.b⟩ (vec xs, r) = 0 := by
    intro r hr
    have := solves_iff.1 hsol r (by rw [hsame.A]; exact hr)
    rwa [hsame.A] at this
  obtain ⟨s', es, hf⟩ := flux_balance p hn hm hsame hg hl hs (fun W w hW hw => by
    have := hz (G.nc + w) (by rw [(st.fits.getD.wells _ W rfl hW).1]; omega)
    rw [hres, if_neg (by simp), sub_zero] at this
    exact this)
  refine ⟨s', es, fun c hc => ?_⟩
  have := hz c (by have := st.fits.nc; omega)
  rw [hres] at this
  simp only [if_pos hc] at this
  rw [hf c hc]
  simp only [vec] at this ⊢
  have e2 : porevol.getD c 0 * rockComp.getD c 0 / dt * (xs.getD c 0 - pressure.getD c 0) = porevol.getD c 0 * rockComp.getD c 0 * (xs.getD c 0 - pressure.getD c 0) / dt := by ring
  linarith

/-- **The compressible system has exactly one solution** when pore volumes, compressibilities and the time step are positive. -/
theorem comprock_system_regular (p : Problem G F trans gpress h) (ht : ∀ f, f < G.nf → 0 ≤ trans.getD f 0) (hn : PerfsNonneg (F.getD noForces))
    (hwc : WellsConnected (F.getD noForces)) (hz : Sized G (F.getD noForces) h) {porevol rockComp pressure : List Rat} {dt : Rat} (hdt : 0 < dt)
    (h1 : G.nc ≤ porevol.length) (h2 : G.nc ≤ rockComp.length) (h3 : G.nc ≤ pressure.length) (hp : ∀ c, c < G.nc → 0 < porevol.getD c 0) (hr : ∀ c, c < G.nc → 0 < rockComp.getD c 0)
    {h' : Data} {ok : Bool} (ha : assembleComprock G F trans gpress porevol rockComp dt pressure h = .ok (h', ok)) :
    (∃ xs : List Rat, xs.length = h'.A.m ∧ Solves h' (vec xs)) ∧ ∀ x y, Solves h' x → Solves h' y → ∀ k, k < h'.A.m → x k = y k := by
  obtain ⟨mode, hm⟩ := exists_modes p.forces
  have st := p.setting
  obtain ⟨h'', e, hsame, hg, hres⟩ := assembleComprock_ok st hm (ne_of_gt hdt) h1 h2 h3
  rw [e] at ha
  cases ha
  have hm' : h'.A = h.A := hsame.A
  have hκ : ∀ c, c < G.nc → 0 < porevol.getD c 0 * rockComp.getD c 0 / dt := fun c hc => div_pos (mul_pos (hp c hc) (hr c hc)) hdt
  have huniq : ∀ x y : Nat → Rat, (∀ r, r < h.A.m → rowDot h.A h'.sa x r = rowDot h.A h'.sa y r) → ∀ k, k < h.A.m → x k = y k := by
    intro x y heq
    have hdet := determined (κ := fun c => porevol.getD c 0 * rockComp.getD c 0 / dt) (fg := h'.fgrav) (mode := mode) st.valid st.forces hm ht hn
      (fun c hc => le_of_lt (hκ c hc)) st.fits.nc (fun W hW => (st.fits.getD.wells _ W rfl hW).1) (fun _ => 0)
      (by
        intro x y r _
        simp only [zero_add]
        have hx := hres (x, r)
        have hy := hres (y, r)
        unfold Res at hx hy
        simp only at hx hy
        by_cases hr : r < G.nc
        · simp only [if_pos hr] at hx hy ⊢
          linarith
        · simp only [if_neg hr] at hx hy ⊢
          linarith) heq
    exact all_equal (h := h) hz hwc st.forces (fun c hc => .given ⟨hc, hκ c hc⟩) hdet
  constructor
  · obtain ⟨x, hx⟩ := rowDot_solvable huniq (fun r => h'.b.getD r 0)
    obtain ⟨xs, hl, hxs⟩ := as_list x h.A.m
    refine ⟨xs, by rw [hm']; exact hl, solves_congr (h := h') (by rw [hm']; exact cols_lt p) (fun k hk => (hxs k (by rw [← hm']; exact hk)).symm) ?_⟩
    intro r hr
    rw [hm'] at hr ⊢
    exact hx r hr
  · intro x y hx hy k hk
    rw [hm'] at hk
    refine huniq x y (fun r hr => ?_) k hk
    have h1 := hx r (by rw [hm']; exact hr)
    have h2 := hy r (by rw [hm']; exact hr)
    rw [hm'] at h1 h2
    rw [h1, h2]

/-- **Conservation of the Newton iteration.**  Let `dx` solve the system assembled for the increment from `prev`, and compute fluxes from `prev + dx`: what leaves a
cell is its source, plus what the wells put in, minus the change of pore volume since the start of the step, linearised at `prev`.  In particular, when the increment is
zero, the fluxes satisfy the nonlinear equation. -/
theorem increment_conserves (p : Problem G F trans gpress h) (hF : F ≠ none) (hn : PerfsNonneg (F.getD noForces)) {porevol rockComp prev pv0 : List Rat} {dt : Rat} (hdt : dt ≠ 0)
    (h1 : G.nc ≤ porevol.length) (h2 : G.nc ≤ rockComp.length) (h3 : h.A.m ≤ prev.length) (h4 : G.nc ≤ pv0.length) :
    ∃ h', assembleComprockIncrement G F trans gpress porevol rockComp dt prev pv0 h = .ok (h', true) ∧ Problem G F trans gpress h' ∧
      ∀ (dx : Nat → Rat) (xs : List Rat), Solves h' dx → xs.length = h'.A.m → (∀ k, k < h'.A.m → xs.getD k 0 = prev.getD k 0 + dx k) → ∀ s, SolnOk G (F.getD noForces) s →
        ∃ s', pressFlux G F trans { h' with x := xs } s = .ok s' ∧ ∀ c, c < G.nc → G.netOutflow (vec s'.faceFlux) c =
          srcOf (F.getD noForces) c + wellSource (F.getD noForces) s' c - (porevol.getD c 0 + porevol.getD c 0 * rockComp.getD c 0 * dx c - pv0.getD c 0) / dt := by
  obtain ⟨mode, hm⟩ := exists_modes p.forces
  have st := p.setting
  obtain ⟨h', e, hsame, hg, hres⟩ := assembleComprockIncrement_ok st hF hm hdt h1 h2 h3 h4
  refine ⟨h', e, p.of_same hsame, fun dx xs hsol hl hxs s hs => ?_⟩
  have hz : ∀ r, r < h.A.m → Res h.A ⟨h'.sa, h'.b⟩ (dx, r) = 0 := by
    intro r hr
    have := solves_iff.1 hsol r (by rw [hsame.A]; exact hr)
    rwa [hsame.A] at this
  have hcong : ∀ r, r < G.nc ∨ (∃ W, (F.getD noForces).wells = some W ∧ r < G.nc + W.nw) →
      balance G (F.getD noForces) mode trans h'.fgrav (fun k => prev.getD k 0 + dx k, r) = balance G (F.getD noForces) mode trans h'.fgrav (vec xs, r) := by
    intro r _
    refine balance_congr st.valid st.forces (fun k hk => ?_) r
    refine (hxs k ?_).symm
    rw [hsame.A]
    rcases hk with hk | ⟨W, hW, hk⟩
    · have := st.fits.nc; omega
    · rw [(st.fits.getD.wells _ W rfl hW).1]; exact hk
  obtain ⟨s', es, hf⟩ := flux_balance p hn hm hsame hg hl hs (fun W w hW hw => by
    have hr : G.nc + w < G.nc ∨ (∃ W, (F.getD noForces).wells = some W ∧ G.nc + w < G.nc + W.nw) := Or.inr ⟨W, hW, by omega⟩
    have := hz (G.nc + w) (by rw [(st.fits.getD.wells _ W rfl hW).1]; omega)
    rw [hres _ _ hr, if_neg (by simp), sub_zero, hcong _ hr] at this
    exact this)
  refine ⟨s', es, fun c hc => ?_⟩
  have := hz c (by have := st.fits.nc; omega)
  rw [hres _ _ (Or.inl hc), hcong _ (Or.inl hc), if_pos hc] at this
  rw [hf c hc]
  have e2 : (porevol.getD c 0 + porevol.getD c 0 * rockComp.getD c 0 * dx c - pv0.getD c 0) / dt =
      (porevol.getD c 0 - pv0.getD c 0) / dt + porevol.getD c 0 * rockComp.getD c 0 / dt * dx c := by ring
  rw [e2]
  linarith

/-- The increment assembly dereferences a null pointer when there are no driving forces, whatever the inputs; the other assemblies accept that. -/
theorem increment_needs_forces (p : Problem G none trans gpress h) {porevol rockComp prev pv0 : List Rat} {dt : Rat} (hdt : dt ≠ 0)
    (h1 : G.nc ≤ porevol.length) (h2 : G.nc ≤ rockComp.length) (h3 : h.A.m ≤ prev.length) (h4 : G.nc ≤ pv0.length) :
    assembleComprockIncrement G none trans gpress porevol rockComp dt prev pv0 h = .error .ub ∧ ∃ h', assemble G none trans gpress h = .ok (h', true) := by
  obtain ⟨mode, hm⟩ := exists_modes p.forces
  obtain ⟨h', e, _⟩ := assemble_succeeds p
  exact ⟨increment_null p.setting hm hdt h1 h2 h3 h4, h', e⟩

end

/-! ## A concrete problem

Two cells in a row; a pressure controlled well in cell 0, a rate controlled well in both, a shut well in cell 1; flux into the left boundary, given pressure at the right one;
sources and gravity. -/

namespace Demo

def duo : GridTopo := { nc := 2, nf := 3, cellFacepos := [0, 2, 4], cellFaces := [0, 1, 1, 2], faceCells := [-1, 0, 0, 1, 1, -1] }

def ctl (ty : Wells.CtrlType) (cur : Int) (t : Rat) : Wells.Controls := { num := 1, cpty := 1, type := [ty], target := [t], distr := [1, 1], current := cur }

def wells : Wells.W :=
  { nw := 3, np := 2, type := [.injector, .producer, .producer], depthRef := [0, 0, 0], compFrac := [1, 0, 1, 0, 1, 0], connpos := [0, 1, 3, 4], cells := [0, 0, 1, 1],
    wi := [1, 2, 1, 3], ctrls := [ctl .bhp 0 10, ctl .reservoirRate 0 (-5), ctl .bhp (-1) 7], name := [none, none, none], wellCpty := 3, perfCpty := 4 }

def conds : FlowBc.Bcs := { nbc := 2, condCpty := 2, faceCpty := 2, condPos := [0, 1, 2], type := [.fluxTotvol, .pressure], value := [3, 4], face := [0, 2] }

def forces : Forces := { src := some [1, 2], bc := some conds, wells := some wells, totmob := some [1, 1/2], wdp := some [1, 0, 2, 1] }

def fresh : Data :=
  { A := { m := 5, nnz := 15, ia := [0, 4, 8, 10, 13, 15], ja := [0, 1, 2, 3, 0, 1, 3, 4, 0, 2, 0, 1, 3, 1, 4] }, sa := List.replicate 15 7, b := [7, 7, 7, 7, 7],
    x := [7, 7, 7, 7, 7], fgrav := [7, 7, 7], work := [7, 7, 7, 7, 7] }

def assembled : Data :=
  { fresh with sa := [5, -2, 0, -2, -2, 11/2, -1/2, 0, 0, 1, -2, -1/2, 5/2, 0, 3/2], b := [17, 13, 10, -6, 0], fgrav := [0, -1, 0] }

def soln : List Rat := [157/21, 347/63, 10, 295/63, 0]

theorem rowPos_of {n : Nat} {pos : List Nat} (h1 : n < pos.length) (h2 : pos[0]? = some 0) (h3 : ∀ c, c < n → pos.getD c 0 ≤ pos.getD (c + 1) 0) : RowPos n pos :=
  ⟨h1, h2, fun c a b hc ha hb => by rw [← getD_of_getElem? (d := 0) ha, ← getD_of_getElem? (d := 0) hb]; exact h3 c hc⟩

theorem wellsOk : WellsOk duo wells := by
  refine ⟨rowPos_of (by decide) rfl (by decide), ?_, by decide, ?_⟩
  · intro i hi
    have : i < 4 := hi
    match i, this with
    | 0, _ => exact ⟨0, rfl, by decide⟩
    | 1, _ => exact ⟨0, rfl, by decide⟩
    | 2, _ => exact ⟨1, rfl, by decide⟩
    | 3, _ => exact ⟨1, rfl, by decide⟩
  · intro w hw
    have : w < 3 := hw
    match w, this with
    | 0, _ => exact ⟨.bhp 10, _, rfl, 0, rfl, by decide, rfl, rfl⟩
    | 1, _ => exact ⟨.rate (-5), _, rfl, 0, rfl, by decide, rfl, rfl, by decide +kernel⟩
    | 2, _ => exact ⟨.shut, _, rfl, by decide⟩

theorem condsOk : BcOk duo conds := by
  refine ⟨rowPos_of (by decide) rfl (by decide), by decide, by decide, ?_, ?_, ?_⟩
  · intro j hj
    have : j < 2 := hj
    match j, this with
    | 0, _ => exact ⟨0, 0, rfl, Or.inr ⟨rfl, rfl⟩⟩
    | 1, _ => exact ⟨2, 1, rfl, Or.inl ⟨rfl, rfl⟩⟩
  · intro j j' h1 h2 e
    have h1 : j < 2 := h1
    have h2 : j' < 2 := h2
    match j, h1, j', h2 with
    | 0, _, 0, _ => rfl
    | 1, _, 1, _ => rfl
    | 0, _, 1, _ => cases e
    | 1, _, 0, _ => cases e
  · intro i a b hi _ ha hb
    have : i < 2 := hi
    match i, this with
    | 0, _ => cases ha; cases hb; rfl
    | 1, _ => cases ha; cases hb; rfl

theorem forcesOk : ForcesOk duo forces := by
  refine ⟨?_, ?_, ?_⟩
  · intro s e; cases e; decide
  · intro bc e; cases e; exact condsOk
  · intro W e; cases e; exact ⟨wellsOk, _, _, rfl, rfl, by decide, by decide⟩

theorem problem : Problem duo (some forces) [1, 2, 3] [1, 5, 6, 2] fresh := by
  refine ⟨GridTopo.ValidB.valid (by decide +kernel), rfl, by decide, forcesOk, ⟨by decide, by decide⟩, fun _ => 9, fun _ => 7, some wells, fresh, ?_, ?_, by decide +kernel, SameShape.refl _⟩
  · intro W e; cases e; exact wellsOk
  · intro W e; cases e; exact ⟨wells, rfl, rfl, rfl, rfl⟩

theorem assembles : assemble duo (some forces) [1, 2, 3] [1, 5, 6, 2] fresh = .ok (assembled, true) := by decide +kernel

theorem solves : Solves assembled (vec soln) := by
  intro i hi
  have : i < 5 := hi
  match i, this with
  | 0, _ => decide +kernel
  | 1, _ => decide +kernel
  | 2, _ => decide +kernel
  | 3, _ => decide +kernel
  | 4, _ => decide +kernel

theorem perfs : PerfsNonneg forces := by
  intro W e i hi
  cases e
  have : i < 4 := hi
  match i, this with
  | 0, _ => decide +kernel
  | 1, _ => decide +kernel
  | 2, _ => decide +kernel
  | 3, _ => decide +kernel

/-- The fluxes: 3 in over the left boundary, 95/21 out at the right one. -/
example : pressFlux duo (some forces) [1, 2, 3] { assembled with x := soln } { cellPress := [0, 0], faceFlux := [0, 0, 0], wellPress := some [0, 0, 9], wellFlux := some [0, 0, 0, 0] } =
    .ok { cellPress := [157/21, 347/63], faceFlux := [3, 122/63, 95/21], wellPress := some [10, 295/63, 9], wellFlux := some [74/21, -352/63, 37/63, 0] } := by decide +kernel

theorem solnOk : SolnOk duo forces { cellPress := [0, 0], faceFlux := [0, 0, 0], wellPress := some [0, 0, 9], wellFlux := some [0, 0, 0, 0] } :=
  ⟨by decide, by decide, fun W p e e' => by cases e; cases e'; decide, fun W e => by cases e; exact ⟨_, rfl, by decide⟩⟩

example := fluxes_conserve problem (Or.inr ⟨conds, 1, rfl, by decide, rfl⟩) perfs assembles (xs := soln) rfl solves solnOk
example := flux_law problem assembles (xs := soln) rfl solnOk
example := well_constraints problem perfs assembles (xs := soln) rfl solves solnOk rfl rfl
example := shut_well_decoupled problem assembles (W := wells) rfl (w := 2) (by decide) ⟨_, rfl, by decide⟩ (x := vec soln) (x' := vec (soln.set 4 77))
  (fun k hk => by
    have hk : k ≠ 4 := hk
    show soln.getD k 0 = (soln.set 4 77).getD k 0
    rw [List.getD_eq_getElem?_getD, List.getD_eq_getElem?_getD, List.getElem?_set_ne (Ne.symm hk)]) (r := 1) (by decide)

theorem anchored (K : Nat → Prop) : ∀ c, c < duo.nc → Anchored duo forces [1, 2, 3] K c := by
  have h1 : Anchored duo forces [1, 2, 3] K 1 := .cond (bc := conds) (v := 4) (f := 2) rfl ⟨1, 1, 1, 2, by decide, rfl, rfl, rfl, rfl, by decide, by decide, rfl⟩ (Or.inl ⟨rfl, rfl⟩) (by decide +kernel)
  intro c hc
  have : c < 2 := hc
  match c, this with
  | 0, _ => exact .face (f := 1) (a := 1) (Or.inr ⟨rfl, rfl⟩) (by decide +kernel) h1
  | 1, _ => exact h1

theorem connected : WellsConnected forces := by
  intro W w e hw
  cases e
  have : w < 3 := hw
  match w, this with
  | 0, _ => exact ⟨0, 0, ⟨0, 1, rfl, rfl, by decide, by decide, rfl⟩, by decide +kernel⟩
  | 1, _ => exact ⟨1, 0, ⟨1, 3, rfl, rfl, by decide, by decide, rfl⟩, by decide +kernel⟩
  | 2, _ => exact ⟨3, 1, ⟨3, 4, rfl, rfl, by decide, by decide, rfl⟩, by decide +kernel⟩

example := pressure_system_regular problem (by decide +kernel) perfs (anchored _) connected rfl assembles
example := comprock_conserves problem perfs (porevol := [1, 2]) (rockComp := [1/10, 1/5]) (pressure := [3, 4]) (dt := 1/2) (by decide +kernel) (by decide) (by decide) (by decide)
example := comprock_system_regular problem (by decide +kernel) perfs connected rfl (porevol := [1, 2]) (rockComp := [1/10, 1/5]) (pressure := [3, 4]) (dt := 1/2) (by decide +kernel)
  (by decide) (by decide) (by decide) (by decide +kernel) (by decide +kernel)
  (comprock_conserves problem perfs (porevol := [1, 2]) (rockComp := [1/10, 1/5]) (pressure := [3, 4]) (dt := 1/2) (by decide +kernel) (by decide) (by decide) (by decide)).choose_spec.1
example := increment_conserves problem (by simp) perfs (porevol := [1, 2]) (rockComp := [1/10, 1/5]) (prev := [3, 4, 5, 6, 7]) (pv0 := [1, 3/2]) (dt := 1/2) (by decide +kernel)
  (by decide) (by decide) (by decide) (by decide)

/-! A singular problem: source in cell 0, sink in cell 1 and outflow over the right boundary. -/

def conds2 : FlowBc.Bcs := { nbc := 1, condCpty := 1, faceCpty := 1, condPos := [0, 1], type := [.fluxTotvol], value := [-2], face := [2] }
def forces2 : Forces := { src := some [3, -1], bc := some conds2, wells := none, totmob := none, wdp := none }
def fresh2 : Data := { A := { m := 2, nnz := 4, ia := [0, 2, 4], ja := [0, 1, 0, 1] }, sa := [7, 7, 7, 7], b := [7, 7], x := [7, 7], fgrav := [7, 7, 7], work := [7, 7] }
def assembled2 : Data := { fresh2 with sa := [4, -2, -2, 2], b := [3, -3], fgrav := [0, 0, 0] }

theorem forcesOk2 : ForcesOk duo forces2 := by
  refine ⟨?_, ?_, ?_⟩
  · intro s e; cases e; decide
  · intro bc e
    cases e
    refine ⟨rowPos_of (by decide) rfl (by decide), by decide, by decide, ?_, ?_, ?_⟩
    · intro j hj
      have : j < 1 := hj
      obtain rfl : j = 0 := by omega
      exact ⟨2, 1, rfl, Or.inl ⟨rfl, rfl⟩⟩
    · intro j j' h1 h2 _
      have h1 : j < 1 := h1
      have h2 : j' < 1 := h2
      omega
    · intro i a b hi _ ha hb
      have : i < 1 := hi
      obtain rfl : i = 0 := by omega
      cases ha; cases hb; rfl
  · intro W e; cases e

theorem problem2 : Problem duo (some forces2) [1, 2, 3] [0, 0, 0, 0] fresh2 :=
  ⟨GridTopo.ValidB.valid (by decide +kernel), rfl, by decide, forcesOk2, ⟨by decide, by decide⟩, fun _ => 9, fun _ => 7, none, fresh2, fun W e => (by cases e), fun W e => (by cases e),
    by decide +kernel, SameShape.refl _⟩

theorem assembles2 : assemble duo (some forces2) [1, 2, 3] [0, 0, 0, 0] fresh2 = .ok (assembled2, true) := by decide +kernel

theorem noBhp2 : ¬ SomeBhpWell forces2 := fun ⟨_, _, _, h, _⟩ => by cases h
theorem noPress2 : ¬ SomePressureCond forces2 := by
  rintro ⟨bc, i, e, hi, ht⟩
  cases e
  have : i < 1 := hi
  obtain rfl : i = 0 := by omega
  cases ht

theorem perfs2 : PerfsNonneg forces2 := fun W e => by cases e

theorem solves2 : Solves assembled2 (vec [0, -3/2]) := by
  intro i hi
  have : i < 2 := hi
  match i, this with
  | 0, _ => decide +kernel
  | 1, _ => decide +kernel

example := singular_system_fixed problem2 noBhp2 noPress2 (by decide +kernel) perfs2 (by decide +kernel) (f0 := 1) (b := 1) (by decide) (by decide +kernel) (Or.inl ⟨rfl, rfl⟩) assembles2
  (xs := [0, -3/2]) rfl solves2

example := singular_system_regular problem2 noBhp2 noPress2 (by decide +kernel) perfs2 (f0 := 1) (b := 1) (by decide) (by decide +kernel) (Or.inl ⟨rfl, rfl⟩)
  (by
    intro c hc
    have : c < 2 := hc
    match c, this with
    | 0, _ => exact .given rfl
    | 1, _ => exact .face (f := 1) (a := 0) (Or.inl ⟨rfl, rfl⟩) (by decide +kernel) (.given rfl)) (fun W w e => by cases e) rfl assembles2

/-- No driving forces at all. -/
theorem problem3 : Problem duo none [1, 2, 3] [0, 0, 0, 0] fresh2 :=
  ⟨GridTopo.ValidB.valid (by decide +kernel), rfl, by decide, ⟨fun _ e => (by cases e), fun _ e => (by cases e), fun _ e => (by cases e)⟩, ⟨by decide, by decide⟩, fun _ => 9, fun _ => 7, none,
    fresh2, fun W e => (by cases e), fun W e => (by cases e), by decide +kernel, SameShape.refl _⟩

example := increment_needs_forces problem3 (porevol := [1, 2]) (rockComp := [1/10, 1/5]) (prev := [3, 4]) (pv0 := [1, 3/2]) (dt := 1/2) (by decide +kernel) (by decide) (by decide) (by decide) (by decide)

end Demo

end Opm.IfsTpfa
