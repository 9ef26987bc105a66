import Verif.Proofs.IncompTpfa
/-!
# The pressure solver for incompressible fluids

Properties C112 and C113.
-/

namespace Opm.IncompTpfa
open Opm Opm.IfsTpfa Opm.Rock

/-- **Construction** succeeds on every admissible input, and the members hold half-transmissibilities of all half faces. -/
theorem make_succeeds (junk : Nat → Nat) (jd : Nat → Rat) {I : Input} (hI : InputOk I) {W : Option Wells.W} (hW : ∀ W', W = some W' → WellsFit I W') :
    ∃ S, make junk jd I W = .ok S ∧ ∀ c f i, I.G.HalfFace c f i → S.htrans.getD i 0 = halfTrans I c f := by
  obtain ⟨S, e, h, _⟩ := make_ok junk jd hI hW
  exact ⟨S, e, h.ht⟩

/-- Wells with other numbers of phases than the fluid are refused. -/
theorem make_refuses (junk : Nat → Nat) (jd : Nat → Rat) {I : Input} (hI : InputOk I) {W : Wells.W} (h : W.np ≠ I.fluid.np) : make junk jd I (some W) = .error .thrown := by
  unfold make
  rw [rd_of_getElem? ((rowPos hI).get (le_refl _)), bind_ok]
  have : checkPhases I (some W) = .error .thrown := if_pos h
  rw [this]
  rfl

/-- The members of an object without rock compressibility, after any number of calls. -/
theorem used_ready {junk : Nat → Nat} {jd : Nat → Rat} {ls : Data → List Rat} {I : Input} {W0 : Option Wells.W} {first : Option (Option Wells.W × List Rat)} {S : Solver} (hI : InputOk I)
    (hW0 : ∀ W', W0 = some W' → WellsFit I W') (hR : Rigid I) (hlen : ∀ h, (ls h).length = h.A.m) (h : Used junk jd ls I W0 first S) : Ready I W0 S ∧ Offs I W0 first S.wdp := by
  induction h with
  | made h =>
    obtain ⟨S', e, h1, h2⟩ := make_ok junk jd hI hW0
    rw [h] at e
    cases e
    exact ⟨h1, h2⟩
  | called _ hW hs hst _ _ hc ih =>
    rw [solve_rigid hR] at hc
    exact (incomp_core hI hW hW0 hs hst hR ih.1 ih.2 hlen).1 _ _ hc

/-- **Incompressible solve.**  On every object without rock compressibility, after any number of calls with any admissible states and well controls: if the linear solver is exact, every cell is
linked to something that fixes its pressure, and every well has a perforation with positive well index, then `solve` returns; the fluxes obey Darcy's law with the mobilities and densities of the
given saturations, the boundary conditions, and volume balance in every cell; wells obey their controls; shut wells keep their reported pressure.  The pressure differences between
perforations and reference depths are those of the first call. -/
theorem incompressible_solve {junk : Nat → Nat} {jd : Nat → Rat} {ls : Data → List Rat} (hex : Exact ls) {I : Input} (hI : InputOk I) (hR : Rigid I) {W W0 : Option Wells.W}
    (hW0 : ∀ W', W0 = some W' → WellsFit I W') {first : Option (Option Wells.W × List Rat)} {S : Solver} (hU : Used junk jd ls I W0 first S)
    (hW : ∀ W', W = some W' → WellsFit I W') (hs : SamePerfs W W0) (hall : AllPerforated W) {st : State} (hst : StateOk I W st) (hlink : ∀ c, c < I.G.nc → Linked I W c) (dt : Rat) :
    ∃ S' st', solve ls I W dt S st = .ok (S', st') ∧ st'.saturation = st.saturation ∧ Darcy I st.saturation st' ∧ Balanced I W (fun _ => 0) st' ∧
      ∀ V, W = some V → WellsSolved I V st.saturation (fun w _ c => usedOffset I first V st.saturation w c) st' ∧ ∀ w, w < V.nw → HasMode V w .shut → st'.bhp.getD w 0 = st.bhp.getD w 0 := by
  obtain ⟨h1, h2⟩ := used_ready hI hW0 hR (fun h => (hex h).1) hU
  rw [solve_rigid hR]
  exact (incomp_core hI hW hW0 hs hst hR h1 h2 (fun h => (hex h).1)).2 hex hall hlink

/-- The offsets of the first call are those of its saturations. -/
theorem first_solve_offsets (I : Input) (V : Wells.W) (s : List Rat) (w c : Nat) : usedOffset I none V s w c = offset I V s w c := rfl

/-- **The offsets go stale.**  The claim that wells are in hydrostatic balance with the fluid given to `solve` is false for every call but the first: whenever the offset of some perforation with a
positive well index, of an open well, differs between the two saturations, the rate of the perforation is not the one given by the current offset. -/
theorem stale_well_offsets {junk : Nat → Nat} {jd : Nat → Rat} {ls : Data → List Rat} (hex : Exact ls) {I : Input} (hI : InputOk I) (hR : Rigid I) {V V1 : Wells.W} {W0 : Option Wells.W}
    (hW0 : ∀ W', W0 = some W' → WellsFit I W') {s1 : List Rat} {S : Solver} (hU : Used junk jd ls I W0 (some (some V1, s1)) S)
    (hV : WellsFit I V) (hs : SamePerfs (some V) W0) (hall : AllPerforated (some V)) {st : State} (hst : StateOk I (some V) st) (hlink : ∀ c, c < I.G.nc → Linked I (some V) c) (dt : Rat)
    {w i c : Nat} (hw : w < V.nw) (hp : IsPerf V w i c) (hwi : 0 < V.wi.getD i 0) (hopen : ¬ HasMode V w .shut) (hne : offset I V1 s1 w c ≠ offset I V st.saturation w c) :
    ∃ S' st', solve ls I (some V) dt S st = .ok (S', st') ∧
      st'.perfRates.getD i 0 ≠ lam I st.saturation c * V.wi.getD i 0 * (st'.bhp.getD w 0 + offset I V st.saturation w c - st'.pressure.getD c 0) := by
  obtain ⟨S', st', e, _, _, _, hwell⟩ := incompressible_solve hex hI hR hW0 hU (W := some V) (fun W' e => by cases e; exact hV) hs hall hst hlink dt
  refine ⟨S', st', e, fun h => hne ?_⟩
  have h2 := (hwell V rfl).1.perf w hw hopen i c hp
  rw [h2] at h
  have hpos := mul_pos (hst.flows c (perf_cell hV hw hp)) hwi
  have h3 := mul_left_cancel₀ (ne_of_gt hpos) h
  have : usedOffset I (some (some V1, s1)) V st.saturation w c = offset I V1 s1 w c := rfl
  rw [this] at h3
  linarith

/-- Exact linear solvers exist. -/
theorem exists_exact : ∃ ls, Exact ls := by
  classical
  refine ⟨fun h => if hx : ∃ x : List Rat, x.length = h.A.m ∧ Solves h (fun k => x.getD k 0) then hx.choose else List.replicate h.A.m 0, fun h => ?_⟩
  by_cases hx : ∃ x : List Rat, x.length = h.A.m ∧ Solves h (fun k => x.getD k 0)
  · simp only [dif_pos hx]
    exact ⟨hx.choose_spec.1, fun _ => hx.choose_spec.2⟩
  · simp only [dif_neg hx]
    exact ⟨by simp, fun h => absurd h hx⟩

/-! ## A concrete case

Two cells on top of each other, three wells, a flux condition below and a pressure condition above. -/

namespace Demo
open Opm.IfsTpfa.Demo (duo wells conds)

def fluid : MiscUtil.Props := { np := 2, visc := [1, 2], density := [10, 20], relperm := fun s _ => s }

def input : Input :=
  { G := duo, geo := { d := 3, cellCentroids := [0, 0, 1/2, 0, 0, 3/2], faceNormals := [0, 0, 1, 0, 0, 1, 0, 0, 1], faceCentroids := [0, 0, 0, 0, 0, 1, 0, 0, 2] }, vol := [1, 1], fluid := fluid,
    perm := [1, 0, 0, 0, 1, 0, 0, 0, 1, 2, 0, 0, 0, 2, 0, 0, 0, 2], porosity := [1/2, 1/2], rock := none, residualTol := 1/10, changeTol := 1/10, maxiter := 5,
    gravity := some [0, 0, 10], src := [1, 2], bcs := some conds }

theorem halfFaces {c f i : Nat} (h : duo.HalfFace c f i) : (c = 0 ∧ f = 0 ∧ i = 0) ∨ (c = 0 ∧ f = 1 ∧ i = 1) ∨ (c = 1 ∧ f = 1 ∧ i = 2) ∨ (c = 1 ∧ f = 2 ∧ i = 3) := by
  obtain ⟨hc, h1, h2, h3⟩ := (Trans.halfFace_iff (GridTopo.ValidB.valid (by decide +kernel))).1 h
  have hc : c < 2 := hc
  match c, hc with
  | 0, _ =>
    have h2 : i < 2 := h2
    match i, h2 with
    | 0, _ => cases h3; simp
    | 1, _ => cases h3; simp
  | 1, _ =>
    have h1 : 2 ≤ i := h1
    have h2 : i < 4 := h2
    obtain rfl | rfl : i = 2 ∨ i = 3 := by omega
    · cases h3; simp
    · cases h3; simp

theorem inputOk : InputOk input where
  valid := GridTopo.ValidB.valid (by decide +kernel)
  first := rfl
  nonempty := by decide
  sided := by
    intro f hf h
    have hf : f < 3 := hf
    match f, hf with
    | 0, _ => exact absurd h.2 (by decide)
    | 1, _ => exact absurd h.1 (by decide)
    | 2, _ => exact absurd h.1 (by decide)
  sizes := ⟨by decide, by decide, by decide, by decide, by decide⟩
  dim := by decide
  conducts := by
    intro c f i h
    rcases halfFaces h with ⟨rfl, rfl, rfl⟩ | ⟨rfl, rfl, rfl⟩ | ⟨rfl, rfl, rfl⟩ | ⟨rfl, rfl, rfl⟩ <;> decide +kernel
  fluid := ⟨rfl, fun p hp => by have hp : p < 2 := hp; match p, hp with | 0, _ => decide +kernel | 1, _ => decide +kernel, rfl, fun s cells h => h⟩
  gravity := by intro g e; cases e; decide
  src := .inr (by decide)
  bcs := by intro bc e; cases e; exact IfsTpfa.Demo.condsOk

theorem wellsFit : WellsFit input wells where
  ok := IfsTpfa.Demo.wellsOk
  depth := by decide
  phases := rfl
  perfs := by decide
  wi := by
    intro i hi
    have : i < 4 := hi
    match i, this with
    | 0, _ => decide +kernel
    | 1, _ => decide +kernel
    | 2, _ => decide +kernel
    | 3, _ => decide +kernel
  space := rfl

def state1 : State := { saturation := [1, 0, 1/2, 1/2], pressure := [0, 0], faceflux := [0, 0, 0], bhp := [0, 0, 9], perfRates := [0, 0, 0, 0] }
def state2 : State := { state1 with saturation := [0, 1, 1/2, 1/2] }

theorem flows (s : List Rat) (h : s = state1.saturation ∨ s = state2.saturation) : ∀ c, c < input.G.nc → 0 < lam input s c := by
  intro c hc
  have hc : c < 2 := hc
  rcases h with rfl | rfl
  · match c, hc with
    | 0, _ => decide +kernel
    | 1, _ => decide +kernel
  · match c, hc with
    | 0, _ => decide +kernel
    | 1, _ => decide +kernel

theorem stateOk1 : StateOk input (some wells) state1 := ⟨rfl, rfl, rfl, fun W e => by cases e; exact ⟨rfl, rfl⟩, flows _ (.inl rfl)⟩
theorem stateOk2 : StateOk input (some wells) state2 := ⟨rfl, rfl, rfl, fun W e => by cases e; exact ⟨rfl, rfl⟩, flows _ (.inr rfl)⟩

theorem linked : ∀ c, c < input.G.nc → Linked input (some wells) c := by
  have h1 : Linked input (some wells) 1 := .cond (bc := conds) (v := 4) (f := 2) rfl ⟨1, 1, 1, 2, by decide, rfl, rfl, rfl, rfl, by decide, by decide, rfl⟩ (.inl ⟨rfl, rfl⟩)
  intro c hc
  have : c < 2 := hc
  match c, this with
  | 0, _ => exact .face (f := 1) (a := 1) (.inr ⟨rfl, rfl⟩) h1
  | 1, _ => exact h1

theorem perforated : AllPerforated (some wells) := by
  intro W w e hw
  cases e
  have : w < 3 := hw
  match w, this with
  | 0, _ => exact ⟨0, 0, ⟨0, 1, rfl, rfl, by decide, by decide, rfl⟩, by decide +kernel⟩
  | 1, _ => exact ⟨1, 0, ⟨1, 3, rfl, rfl, by decide, by decide, rfl⟩, by decide +kernel⟩
  | 2, _ => exact ⟨3, 1, ⟨3, 4, rfl, rfl, by decide, by decide, rfl⟩, by decide +kernel⟩

theorem fits : ∀ W', (some wells) = some W' → WellsFit input W' := fun W' e => by cases e; exact wellsFit

theorem rigid : Rigid input := fun r h => by cases h

/-- The first call. -/
example (ls : Data → List Rat) (hex : Exact ls) : ∃ S, make (fun _ => 0) (fun _ => 0) input (some wells) = .ok S ∧ ∃ S' st', solve ls input (some wells) 1 S state1 = .ok (S', st') ∧
    Darcy input state1.saturation st' ∧ Balanced input (some wells) (fun _ => 0) st' ∧ WellsSolved input wells state1.saturation (fun w _ c => offset input wells state1.saturation w c) st' := by
  obtain ⟨S, e, _⟩ := make_succeeds (fun _ => 0) (fun _ => 0) inputOk fits
  obtain ⟨S', st', e', _, h1, h2, h3⟩ := incompressible_solve hex inputOk rigid fits (.made e) fits ⟨rfl, rfl, rfl⟩ perforated stateOk1 linked 1
  exact ⟨S, e, S', st', e', h1, h2, (h3 wells rfl).1⟩

/-- Two calls: in the second one the first well, at given pressure, gets the rate of the fluid of the first one. -/
theorem second_call_is_wrong (ls : Data → List Rat) (hex : Exact ls) : ∃ S S1 st1 S2 st2, make (fun _ => 0) (fun _ => 0) input (some wells) = .ok S ∧
    solve ls input (some wells) 1 S state1 = .ok (S1, st1) ∧ solve ls input (some wells) 1 S1 state2 = .ok (S2, st2) ∧
    st2.perfRates.getD 0 0 ≠ lam input state2.saturation 0 * wells.wi.getD 0 0 * (st2.bhp.getD 0 0 + offset input wells state2.saturation 0 0 - st2.pressure.getD 0 0) := by
  obtain ⟨S, e, _⟩ := make_succeeds (fun _ => 0) (fun _ => 0) inputOk fits
  obtain ⟨S1, st1, e1, _⟩ := incompressible_solve hex inputOk rigid fits (.made e) fits ⟨rfl, rfl, rfl⟩ perforated stateOk1 linked 1
  have hU := Used.called (Used.made (ls := ls) e) fits ⟨rfl, rfl, rfl⟩ stateOk1 one_pos (fun _ => ⟨perforated, fun h => by cases h⟩) e1
  obtain ⟨S2, st2, e2, h⟩ := stale_well_offsets hex inputOk rigid fits hU wellsFit ⟨rfl, rfl, rfl⟩ perforated stateOk2 linked 1 (w := 0) (i := 0) (c := 0) (by decide)
    ⟨0, 1, rfl, rfl, by decide, by decide, rfl⟩ (by decide +kernel) (fun ⟨c, hc, h⟩ => by cases hc; exact absurd h (by decide)) (by decide +kernel)
  exact ⟨S, S1, st1, S2, st2, e, e1, e2, h⟩

/-- The model computes: without wells, a system of two equations. -/
example : (make (fun _ => 0) (fun _ => 0) input none).toOption.isSome = true := by decide +kernel

end Demo

end Opm.IncompTpfa
