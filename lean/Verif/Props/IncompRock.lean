import Verif.Proofs.IncompRock
import Verif.Props.IncompTpfa
/-!
# The pressure solver with rock compressibility

Property C114.
-/

namespace Opm.IncompTpfa
open Opm Opm.IfsTpfa Opm.Rock

/-- A rock with constant compressibility is admissible. -/
theorem constant_rock {I : Input} {r : RockComp} (hp : r.p = []) (hc : 0 < r.comp) (h1 : I.G.nc ≤ I.vol.length) (h2 : I.G.nc ≤ I.porosity.length)
    (h3 : ∀ c, c < I.G.nc → 0 < I.vol.getD c 0) (h4 : ∀ c, c < I.G.nc → 0 < I.porosity.getD c 0) :
    r.isActive = true ∧ RockOk I r (fun p => 1 + r.comp * (p - r.pref) + 1 / 2 * (r.comp * (p - r.pref)) * (r.comp * (p - r.pref))) (fun _ => r.comp) := by
  refine ⟨by simp [RockComp.isActive, hp, ne_of_gt hc], ⟨fun p => ?_, fun p => ?_, fun p => ?_, fun _ => hc, h1, h2, h3, h4⟩⟩
  · simp [RockComp.poroMult, hp]
  · simp [RockComp.rockComp, hp]
  · nlinarith [sq_nonneg (1 + r.comp * (p - r.pref))]

/-- The members of an object with rock compressibility, after any number of calls. -/
theorem used_ready_rock {junk : Nat → Nat} {jd : Nat → Rat} {ls : Data → List Rat} {I : Input} {W0 : Option Wells.W} {first : Option (Option Wells.W × List Rat)} {S : Solver} (hI : InputOk I)
    (hW0 : ∀ W', W0 = some W' → WellsFit I W') {r : RockComp} (hr : I.rock = some r) (hact : r.isActive = true) {m k : Rat → Rat} (hrock : RockOk I r m k) (hit : 0 < I.maxiter) (hex : Exact ls)
    (h : Used junk jd ls I W0 first S) : Ready I W0 S ∧ Offs I W0 first S.wdp := by
  induction h with
  | made h =>
    obtain ⟨S', e, h1, h2⟩ := make_ok junk jd hI hW0
    rw [h] at e
    cases e
    exact ⟨h1, h2⟩
  | called _ hW hs hst hdt ha hc ih =>
    unfold solve at hc
    rw [hr] at hc
    simp only [hact, if_true] at hc
    obtain ⟨hall, hb⟩ := ha (by simp [Input.active, hr, hact])
    rcases rock_core (fun h => (hex h).1) hI hW hW0 hs hst hb hr hact hrock hdt hit ih.1 ih.2 hex hall with h | ⟨S', st', e, h1, h2, _⟩
    · rw [h] at hc; cases hc
    · rw [e] at hc
      cases hc
      exact ⟨h1, h2⟩

/-- **Solve with rock compressibility.**  On every object with an active rock of positive multiplier and compressibility, after any number of calls, with a positive time step and at least one iteration
allowed: `solve` throws (no convergence), or returns a state whose fluxes obey Darcy's law at the saturations given and the boundary conditions, and which is accepted: either the nonlinear volume balance
holds in every cell up to the residual tolerance; or it holds exactly with the pore volumes linearised at pressures that differ by at most the change tolerance; or there are wells and the pressures given
were returned unchanged.  In the first two cases wells obey their controls, and shut wells are reported with pressure zero.  Missing for the full property: what the balance is in the third case, where
the residuals of wells are below the tolerance but not zero. -/
theorem rock_solve_partial {junk : Nat → Nat} {jd : Nat → Rat} {ls : Data → List Rat} (hex : Exact ls) {I : Input} (hI : InputOk I) {W W0 : Option Wells.W} (hW0 : ∀ W', W0 = some W' → WellsFit I W')
    {r : RockComp} (hr : I.rock = some r) (hact : r.isActive = true) {m k : Rat → Rat} (hrock : RockOk I r m k) (hit : 0 < I.maxiter) {first : Option (Option Wells.W × List Rat)} {S : Solver}
    (hU : Used junk jd ls I W0 first S) (hW : ∀ W', W = some W' → WellsFit I W') (hs : SamePerfs W W0) (hall : AllPerforated W) {st : State} (hst : StateOk I W st) (hb : W = none → st.bhp = [])
    {dt : Rat} (hdt : 0 < dt) :
    solve ls I W dt S st = .error .thrown ∨ ∃ S' st', solve ls I W dt S st = .ok (S', st') ∧ st'.saturation = st.saturation ∧ Darcy I st.saturation st' ∧
      Accepted I W st.saturation (fun V w _ c => usedOffset I first V st.saturation w c) m k dt st.pressure st' := by
  obtain ⟨h1, h2⟩ := used_ready_rock hI hW0 hr hact hrock hit hex hU
  have e : solve ls I W dt S st = solveRockComp ls I r W dt S st := by
    unfold solve
    rw [hr]
    simp [hact]
  rw [e]
  rcases rock_core (fun h => (hex h).1) hI hW hW0 hs hst hb hr hact hrock hdt hit h1 h2 hex hall with h | ⟨S', st', e, _, _, h3, h4, h5⟩
  · exact .inl h
  · exact .inr ⟨S', st', e, h3, h4, h5⟩

namespace Demo
open Opm.IfsTpfa.Demo (duo wells conds)

def rock : RockComp := { p := [], poromult := [], pref := 0, comp := 1 / 100 }
def soft : Input := { input with rock := some rock }

theorem softOk : InputOk soft := ⟨inputOk.valid, inputOk.first, inputOk.nonempty, inputOk.sided, inputOk.sizes, inputOk.dim, inputOk.conducts, inputOk.fluid, inputOk.gravity, inputOk.src, inputOk.bcs⟩

theorem softFits : ∀ W', (some wells) = some W' → WellsFit soft W' := fun W' e => by
  cases e
  exact ⟨wellsFit.ok, wellsFit.depth, wellsFit.phases, wellsFit.perfs, wellsFit.wi, wellsFit.space⟩

theorem softState : StateOk soft (some wells) state1 := ⟨stateOk1.saturation, stateOk1.pressure, stateOk1.faceflux, stateOk1.wells, stateOk1.flows⟩

theorem softRock : rock.isActive = true ∧ RockOk soft rock (fun p => 1 + rock.comp * (p - rock.pref) + 1 / 2 * (rock.comp * (p - rock.pref)) * (rock.comp * (p - rock.pref))) (fun _ => rock.comp) := by
  refine constant_rock rfl (by decide +kernel) (by decide) (by decide) (fun c hc => ?_) (fun c hc => ?_) <;>
  · have hc : c < 2 := hc
    match c, hc with
    | 0, _ => decide +kernel
    | 1, _ => decide +kernel

example (ls : Data → List Rat) (hex : Exact ls) : ∃ S, make (fun _ => 0) (fun _ => 0) soft (some wells) = .ok S ∧ (solve ls soft (some wells) 1 S state1 = .error .thrown ∨
    ∃ S' st', solve ls soft (some wells) 1 S state1 = .ok (S', st') ∧ Darcy soft state1.saturation st') := by
  obtain ⟨S, e, _⟩ := make_succeeds (fun _ => 0) (fun _ => 0) softOk softFits
  refine ⟨S, e, ?_⟩
  rcases rock_solve_partial hex softOk softFits rfl softRock.1 softRock.2 (by decide) (.made e) softFits ⟨rfl, rfl, rfl⟩ perforated softState (fun h => by cases h) one_pos with h | ⟨S', st', h1, _, h2, _⟩
  · exact .inl h
  · exact .inr ⟨S', st', h1, h2⟩

/-- Without iterations. -/
def lazy : Input := { soft with maxiter := 0 }

def run : M (Solver × State) := do
  let S ← make (fun _ => 0) (fun _ => 0) lazy none
  solve (fun _ => []) lazy none 1 S { state1 with bhp := [], perfRates := [] }

/-- **An unconverged state is returned without an error** when no iterations are allowed: pressures did not change, and the net flux out of cell 0 differs from its source by more than 100, although the
tolerance is 1/10. -/
theorem no_iterations_no_error : ∃ S' st', run = .ok (S', st') ∧ st'.pressure = state1.pressure ∧ lazy.residualTol = 1 / 10 ∧ 100 < lazy.G.netOutflow (fun f => st'.faceflux.getD f 0) 0 - source lazy 0 := by
  have h : (match run with | .ok (_, st') => decide (st'.pressure = state1.pressure ∧ lazy.residualTol = 1 / 10 ∧ 100 < lazy.G.netOutflow (fun f => st'.faceflux.getD f 0) 0 - source lazy 0) | .error _ => false) = true := by
    decide +kernel
  match e : run with
  | .ok (S', st') =>
    rw [e] at h
    exact ⟨S', st', rfl, of_decide_eq_true h⟩
  | .error _ => rw [e] at h; cases h

end Demo

end Opm.IncompTpfa
