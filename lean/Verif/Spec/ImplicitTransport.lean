import Verif.Model.ImplicitTransport
import Verif.Spec.Flux
import Verif.Spec.Trans
/-!
# Implicit two-phase transport: specification
-/

namespace Opm.ImplicitTransport
open Opm

/-- Water mobility of cell `c` at water saturation `s`. -/
def lamW (P : Props) (c : Nat) (s : Rat) : Rat := (P.relperm c s (1 - s)).1.1 / P.mu.1

/-- Oil mobility of cell `c` at water saturation `s`. -/
def lamO (P : Props) (c : Nat) (s : Rat) : Rat := (P.relperm c s (1 - s)).1.2 / P.mu.2

/-- Capillary pressure of cell `c` at water saturation `s`. -/
def pcow (P : Props) (c : Nat) (s : Rat) : Rat := (P.capPress c s (1 - s)).1.1

/-- Smallest and largest water saturation of cell `c`. -/
def low (I : Input) (c : Nat) : Rat := I.P.smin.getD (2 * c) 0
def high (I : Input) (c : Nat) : Rat := I.P.smax.getD (2 * c) 0

/-- `s` is an admissible saturation of cell `c`. -/
def Admissible (I : Input) (c : Nat) (s : Rat) : Prop := low I c ≤ s ∧ s ≤ high I c

/-- The admissible saturation closest to `s`. -/
def closest (I : Input) (c : Nat) (s : Rat) : Rat := min (high I c) (max (low I c) s)

/-- Grids, fluids and rocks the solver can handle: faces have cells, half-transmissibilities are positive, and fluids can move at every admissible saturation. -/
structure InputOk (I : Input) : Prop where
  valid : I.G.Valid
  first : I.G.cellFacepos[0]? = some 0
  nonempty : 0 < I.G.nc
  sided : ∀ f, f < I.G.nf → ¬ I.G.Sides f (-1) (-1)
  enough : I.G.nf ≤ I.G.cellFacepos.getD I.G.nc 0
  htrans : I.htrans.length = I.G.cellFacepos.getD I.G.nc 0
  conducts : ∀ h ∈ I.htrans, 0 < h
  gravity : ∀ g, I.gravity = some g → I.geo.d ≤ g.length ∧ I.G.nf * I.geo.d ≤ I.geo.faceCentroids.length ∧ I.G.nc * I.geo.d ≤ I.geo.cellCentroids.length
  porevol : I.porevol.length = I.G.nc
  ranges : 2 * I.G.nc ≤ I.P.smin.length ∧ 2 * I.G.nc ≤ I.P.smax.length
  range : ∀ c, c < I.G.nc → low I c ≤ high I c
  viscosity : I.P.mu.1 ≠ 0 ∧ I.P.mu.2 ≠ 0
  mobility : ∀ c s, c < I.G.nc → Admissible I c s → 0 ≤ lamW I.P c s ∧ 0 ≤ lamO I.P c s ∧ 0 < lamW I.P c s + lamO I.P c s
  capillary : ∀ c s, c < I.G.nc → Admissible I c s → (I.P.capPress c s (1 - s)).1.2 = 0 ∧ (I.P.capPress c s (1 - s)).2.2 = (0, 0, 0)

/-- The iteration can end. -/
structure ControlOk (C : Control) : Prop where
  iterations : 0 < C.maxIt
  rtol : C.rtol ≤ 1

/-- A state of the right size.  On a face without total flux, water of the second side and oil of the first can flow. -/
structure StateOk (I : Input) (st : State) : Prop where
  saturation : st.saturation.length = 2 * I.G.nc
  pressure : I.G.nc ≤ st.pressure.length
  faceflux : I.G.nf ≤ st.faceflux.length
  moving : ∀ f a b : Nat, I.G.Sides f a b → st.faceflux.getD f 0 = 0 → ∀ s t, Admissible I a s → Admissible I b t → 0 < lamW I.P b t + lamO I.P a s

/-- What drives water relative to oil through face `f` from cell `a` to cell `b`, at the saturations `s`: gravity on the difference of the densities, and capillary pressure; `t` is the transmissibility. -/
def drive (I : Input) (t : Rat) (s : Nat → Rat) (a b : Nat) : Rat :=
  t * ((match I.gravity with
    | none => 0
    | some g => (I.P.rho.1 - I.P.rho.2) * dotN I.geo.d (fun j => g.getD j 0) (fun j => I.geo.cellCentroids.getD (b * I.geo.d + j) 0 - I.geo.cellCentroids.getD (a * I.geo.d + j) 0)) +
    (pcow I.P b (s b) - pcow I.P a (s a)))

/-- `q` is the flux of water at the saturations `s`, by upstream weighting of each phase; nothing flows through boundary faces. -/
def WaterFlux (I : Input) (flux : List Rat) (s : Nat → Rat) (q : Nat → Rat) : Prop :=
  (∀ f a b : Nat, I.G.Sides f a b → ∃ t, 0 < t ∧ I.G.IsTrans (fun _ i => I.htrans.getD i 0) f t ∧
    IsUpwindFlux (flux.getD f 0) (drive I t s a b) (lamW I.P a (s a)) (lamO I.P a (s a)) (lamW I.P b (s b)) (lamO I.P b (s b)) (q f)) ∧
  ∀ f, f < I.G.nf → ¬ I.G.Interior f → q f = 0

/-- Rate at which the source of cell `c` supplies water: sources supply water, sinks take what flows at saturation `s`. -/
def waterSource (P : Props) (source : List Rat) (c : Nat) (s : Rat) : Rat :=
  if 0 < source.getD c 0 then source.getD c 0 else source.getD c 0 * (lamW P c s / (lamW P c s + lamO P c s))

/-- Water saturation of cell `c` when the change `x` is added to the state and limited to the admissible range. -/
def newSat (I : Input) (st : State) (x : Nat → Rat) (c : Nat) : Rat := closest I c (st.saturation.getD (2 * c) 0 + x c)

/-- `r c` is the volume of water missing in cell `c` if its saturation changes by `x c` during the step. -/
def Imbalance (I : Input) (st : State) (source : List Rat) (dt : Rat) (x r : Nat → Rat) : Prop :=
  ∃ q, WaterFlux I st.faceflux (newSat I st x) q ∧
    ∀ c, c < I.G.nc → r c = I.porevol.getD c 0 * x c + dt * I.G.netOutflow q c - dt * waterSource I.P source c (newSat I st x c)

/-- The saturation changes that Newton's method starts from. -/
def guess (I : Input) (st : State) (c : Nat) : Rat := if I.guessPrevious then 0 else 1 / 2 - st.saturation.getD (2 * c) 0

/-- With the changes `x`, saturations leave the admissible range by no more than the tolerance. -/
def Near (I : Input) (st : State) (x : Nat → Rat) : Prop :=
  ∀ c, c < I.G.nc → low I c - 1 / 100000 ≤ st.saturation.getD (2 * c) 0 + x c ∧ st.saturation.getD (2 * c) 0 + x c ≤ high I c + 1 / 100000

/-- The linear solver gives as many numbers as there are unknowns. -/
def Answers (ls : Sys → List Rat) (n : Nat) : Prop := ∀ Y : Sys, Y.res.length = n → (ls Y).length = n

/-- A solver object after any number of successful calls. -/
inductive Used (J : Sources.Junk) (ls : Sys → List Rat) (I : Input) : Solver → Prop where
  | made {S : Solver} (h : make J I = .ok S) : Used J ls I S
  | called {S S' : Solver} {fuel : Nat} {pv source : List Rat} {dt : Rat} {st st' : State} {rpt : Report} (h : Used J ls I S) (hfuel : I.ctrl.maxIt.toNat ≤ fuel) (hst : StateOk I st) (hs : I.G.nc ≤ source.length)
      (hc : solve J fuel ls I pv source dt S st = .ok (S', st', rpt)) : Used J ls I S'

end Opm.ImplicitTransport
