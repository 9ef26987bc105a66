import Verif.Model.IfsTpfa
import Verif.Model.Trans
import Verif.Model.MiscUtil
import Verif.Model.Mimetic
import Verif.Model.RockCompressibility
import Mathlib.Algebra.Field.Rat
/-!
# The pressure solver for incompressible fluids

Models `opm/core/pressure/IncompTpfa.cpp`.  The linear solver is a parameter: `ls h` is what it writes to `x` for the system held by `h`.  The fluid is the
part of the interface used by the mobilities.  The wells are observed by the object and may get other controls between calls, so they are arguments.  Printing is
left out; numbers are exact.
-/

namespace Opm.IncompTpfa
open Opm Opm.IfsTpfa Opm.Rock

/-- What is given to the constructor, apart from the wells.  An absent gravity vector, boundary condition or rock compressibility is a null pointer.
Models: `IncompTpfa.cpp:60-134`. -/
structure Input where
  G : GridTopo
  geo : Trans.Geo
  vol : List Rat
  fluid : MiscUtil.Props
  perm : List Rat
  porosity : List Rat
  rock : Option RockComp
  residualTol : Rat
  changeTol : Rat
  maxiter : Int
  gravity : Option (List Rat)
  src : List Rat
  bcs : Option FlowBc.Bcs

/-- The members that are computed.  Models: `IncompTpfa.hpp:160-181`. -/
structure Solver where
  htrans : List Rat
  gpress : List Rat
  gpressOmega : List Rat
  trans : List Rat
  totmob : List Rat
  omega : List Rat
  wdp : List Rat
  initialPv : List Rat
  porevol : List Rat
  rockComp : List Rat
  pressures : List Rat
  h : Data

/-- `TwophaseState` and `WellState`: the parts used. -/
structure State where
  saturation : List Rat
  pressure : List Rat
  faceflux : List Rat
  bhp : List Rat
  perfRates : List Rat
  deriving DecidableEq

/-- `allcells_`. -/
def Input.cells (I : Input) : List Int := (List.range I.G.nc).map Int.ofNat

/-- The phases of the wells are those of the fluid.  Models: `IncompTpfa.cpp:288-291`. -/
def checkPhases (I : Input) (W : Option Wells.W) : M Unit :=
  match W with
  | none => .ok ()
  | some W => if W.np ≠ I.fluid.np then .error .thrown else .ok ()

/-- `gpress_`.  Models: `IncompTpfa.cpp:296-303`. -/
def gravityTerms (I : Input) (n : Nat) : M (List Rat) :=
  match I.gravity with
  | none => .ok []
  | some g => Mimetic.computeGpress I.G.nc I.geo.d g I.G.cellFacepos I.G.cellFaces I.geo.faceCentroids I.geo.cellCentroids (List.replicate n 0)

/-- The constructors with `computeStaticData`.  Models: `IncompTpfa.cpp:60-134`, `:286-314`. -/
def make (junk : Nat → Nat) (jd : Nat → Rat) (I : Input) (W : Option Wells.W) : M Solver := do
  let n ← rd I.G.cellFacepos I.G.nc
  checkPhases I W
  let ht ← Trans.htransCompute I.G I.geo I.perm (List.replicate n 0)
  let gp ← gravityTerms I n
  let h ← construct junk jd I.G W
  .ok { htrans := ht, gpress := gp, gpressOmega := List.replicate n 0, trans := List.replicate I.G.nf 0, totmob := [], omega := [], wdp := [], initialPv := [], porevol := [],
        rockComp := if I.rock.isSome then List.replicate I.G.nc 0 else [], pressures := List.replicate (I.G.nc + numWells W) 0, h := h }

/-- `rock_comp_props_ && rock_comp_props_->isActive()`. -/
def Input.active (I : Input) : Bool := match I.rock with
  | none => false
  | some r => r.isActive

/-- `gravity_ ? gravity_[2] : 0.0`.  Models: `IncompTpfa.cpp:338`. -/
def downwards (I : Input) : M Rat :=
  match I.gravity with
  | none => .ok 0
  | some g => rd g 2

/-- `wdp_`: the offsets are appended to those of earlier calls.  Models: `IncompTpfa.cpp:337-340`. -/
def wellOffsets (I : Input) (W : Option Wells.W) (sat wdp : List Rat) : M (List Rat) :=
  match W with
  | none => .ok wdp
  | some W => do
    let g ← downwards I
    MiscUtil.computeWDP W I.G.nc I.geo.cellCentroids sat I.fluid.density g true wdp

/-- `totmob_`, `omega_` and `gpress_omegaweighted_`.  Models: `IncompTpfa.cpp:342-349`. -/
def mobilityPart (I : Input) (sat : List Rat) (S : Solver) : M Solver :=
  match I.gravity with
  | some _ => do
    let r ← MiscUtil.computeTotalMobilityOmega I.fluid I.cells sat
    let gpo ← Mimetic.densityUpdate I.G.nc I.G.cellFacepos r.2 S.gpress S.gpressOmega
    .ok { S with totmob := r.1, omega := r.2, gpressOmega := gpo }
  | none => do
    let t ← MiscUtil.computeTotalMobility I.fluid I.cells sat
    .ok { S with totmob := t }

/-- `initial_porevol_`.  Models: `IncompTpfa.cpp:353-355`. -/
def initialPart (I : Input) (pressure : List Rat) (S : Solver) : M Solver :=
  match I.rock with
  | none => .ok S
  | some r => if r.isActive then do
      let pv ← MiscUtil.computePorevolumeComp r.poroMult I.G.nc I.vol I.porosity pressure S.initialPv
      .ok { S with initialPv := pv }
    else .ok S

/-- `computePerSolveDynamicData(dt, state, well_state)`, without the forces.  Models: `IncompTpfa.cpp:322-355`. -/
def perSolve (I : Input) (W : Option Wells.W) (st : State) (S : Solver) : M Solver := do
  let wdp ← wellOffsets I W st.saturation S.wdp
  let S ← mobilityPart I st.saturation { S with wdp := wdp }
  let t ← Trans.effTransCompute I.G S.totmob S.htrans S.trans
  initialPart I st.pressure { S with trans := t }

/-- `forces_`.  Models: `IncompTpfa.cpp:357-361`. -/
def forces (I : Input) (W : Option Wells.W) (S : Solver) : Forces :=
  { src := if I.src.isEmpty then none else some I.src, bc := I.bcs, wells := W, totmob := some S.totmob, wdp := if S.wdp.isEmpty then none else some S.wdp }

/-- The assertions on the sizes of the arrays of the well state.  Models: `IncompTpfa.cpp:193-195`, `:484-486`. -/
def checkWellState (W : Option Wells.W) (st : State) : M Unit :=
  match W with
  | none => .ok ()
  | some W => do
    check (decide (st.bhp.length = W.nw))
    let n ← rd W.connpos W.nw
    check (decide (st.perfRates.length = n))

/-- The state after `ifs_tpfa_press_flux`: pressures and rates of wells are written if there are wells.  Models: `IncompTpfa.cpp:187-199`, `:474-490`. -/
def obtain (I : Input) (W : Option Wells.W) (st : State) (S : Solver) : M State := do
  check (decide (st.pressure.length = I.G.nc))
  check (decide (st.faceflux.length = I.G.nf))
  checkWellState W st
  let s ← pressFlux I.G (some (forces I W S)) S.trans S.h { cellPress := st.pressure, faceFlux := st.faceflux, wellPress := W.map (fun _ => st.bhp), wellFlux := W.map (fun _ => st.perfRates) }
  .ok { st with pressure := s.cellPress, faceflux := s.faceFlux, bhp := s.wellPress.getD st.bhp, perfRates := s.wellFlux.getD st.perfRates }

/-- `solveIncomp(dt, state, well_state)`.  Models: `IncompTpfa.cpp:170-200`. -/
def solveIncomp (ls : Data → List Rat) (I : Input) (W : Option Wells.W) (S : Solver) (st : State) : M (Solver × State) := do
  let S ← perSolve I W st S
  let r ← assemble I.G (some (forces I W S)) S.trans S.gpressOmega S.h
  if r.2 then do
    let S := { S with h := { r.1 with x := ls r.1 } }
    let st ← obtain I W st S
    .ok (S, st)
  else .error .thrown

/-- `std::copy(l.begin(), l.end(), a + o)`. -/
def copyTo (l : List Rat) (o : Nat) (a : List Rat) : M (List Rat) :=
  loop l.length (fun i a => do
    let v ← rd l i
    wr a (o + i) v) a

/-- `pressures_`.  Models: `IncompTpfa.cpp:386-389`. -/
def pressuresPart (I : Input) (W : Option Wells.W) (st : State) (a : List Rat) : M (List Rat) :=
  match W with
  | none => .ok a
  | some _ => do
    let a ← copyTo st.pressure 0 a
    copyTo st.bhp I.G.nc a

/-- `rock_comp_`.  Models: `IncompTpfa.cpp:381-385`. -/
def rockPart (I : Input) (r : RockComp) (pressure a : List Rat) : M (List Rat) :=
  if r.isActive then loop I.G.nc (fun c a => do
    let p ← rd pressure c
    let v ← r.rockComp p
    wr a c v) a
  else .ok a

/-- `computePerIterationDynamicData(dt, state, well_state)`.  Models: `IncompTpfa.cpp:370-390`. -/
def perIteration (I : Input) (r : RockComp) (W : Option Wells.W) (st : State) (S : Solver) : M Solver := do
  let pv ← MiscUtil.computePorevolumeComp r.poroMult I.G.nc I.vol I.porosity st.pressure S.porevol
  let rc ← rockPart I r st.pressure S.rockComp
  let ps ← pressuresPart I W st S.pressures
  .ok { S with porevol := pv, rockComp := rc, pressures := ps }

/-- `assemble(dt, state, well_state)`.  Models: `IncompTpfa.cpp:397-410`. -/
def assembleStep (I : Input) (W : Option Wells.W) (dt : Rat) (st : State) (S : Solver) : M Solver := do
  let prev := if W.isSome then S.pressures else st.pressure
  let r ← assembleComprockIncrement I.G (some (forces I W S)) S.trans S.gpressOmega S.porevol S.rockComp dt prev S.initialPv S.h
  if r.2 then .ok { S with h := r.1 } else .error .thrown

/-- `infnorm(beg, end)`.  Models: `IncompTpfa.cpp:431-439`. -/
def infnorm (l : List Rat) : Rat := l.foldl (fun norm x => max norm |x|) 0

/-- `residualNorm()`, `incrementNorm()`.  Models: `IncompTpfa.cpp:446-458`. -/
def norm (S : Solver) (l : List Rat) : Rat := infnorm (l.take S.h.A.m)

/-- Adding the increment to the pressures.  Models: `IncompTpfa.cpp:240-245`. -/
def update (I : Input) (W : Option Wells.W) (x : List Rat) (st : State) : M State := do
  let p ← loop I.G.nc (fun c p => do
    let v ← rd x c
    addAt p c v) st.pressure
  let b ← loop (numWells W) (fun w b => do
    let v ← rd x (I.G.nc + w)
    addAt b w v) st.bhp
  .ok { st with pressure := p, bhp := b }

/-- Where the iteration stands: iterations left, members, state, norms of residual and increment. -/
structure Iter where
  left : Nat
  S : Solver
  st : State
  res : Rat
  inc : Rat

/-- The `while` loop, with the number of iterations that are left.  Models: `IncompTpfa.cpp:223-268`. -/
def newton (ls : Data → List Rat) (I : Input) (r : RockComp) (W : Option Wells.W) (dt : Rat) : Nat → Solver → State → Rat → Rat → M Iter
  | 0, S, st, res, inc => .ok ⟨0, S, st, res, inc⟩
  | n + 1, S, st, res, inc =>
    if res > I.residualTol then do
      let x := ls S.h
      let S := { S with h := { S.h with x := x } }
      let st ← update I W x st
      let inc := norm S x
      if inc ≤ I.changeTol then .ok ⟨n, S, st, res, inc⟩
      else do
        let S ← perIteration I r W st S
        let S ← assembleStep I W dt st S
        newton ls I r W dt n S st (norm S S.h.b) inc
    else .ok ⟨n + 1, S, st, res, inc⟩

/-- `computeResults(state, well_state)`.  Models: `IncompTpfa.cpp:464-491`. -/
def results (I : Input) (W : Option Wells.W) (S : Solver) (st : State) : M (Solver × State) := do
  let r ← assemble I.G (some (forces I W S)) S.trans S.gpressOmega S.h
  check (decide (st.pressure.length = I.G.nc))
  check (decide (st.faceflux.length = I.G.nf))
  let x ← copyTo st.pressure 0 r.1.x
  let x ← copyTo st.bhp I.G.nc x
  let S := { S with h := { r.1 with x := x } }
  let st ← obtain I W st S
  .ok (S, st)

/-- `solveRockComp(dt, state, well_state)`.  Models: `IncompTpfa.cpp:208-278`. -/
def solveRockComp (ls : Data → List Rat) (I : Input) (r : RockComp) (W : Option Wells.W) (dt : Rat) (S : Solver) (st : State) : M (Solver × State) := do
  let S ← perSolve I W st S
  let S ← perIteration I r W st S
  let S ← assembleStep I W dt st S
  let k ← newton ls I r W dt I.maxiter.toNat S st (norm S S.h.b) 0
  if k.left = 0 ∧ 0 ≤ I.maxiter ∧ k.res > I.residualTol ∧ k.inc > I.changeTol then .error .thrown
  else results I W k.S k.st

/-- `solve(dt, state, well_state)`.  Models: `IncompTpfa.cpp:156-165`. -/
def solve (ls : Data → List Rat) (I : Input) (W : Option Wells.W) (dt : Rat) (S : Solver) (st : State) : M (Solver × State) :=
  match I.rock with
  | some r => if r.isActive then solveRockComp ls I r W dt S st else solveIncomp ls I W S st
  | none => solveIncomp ls I W S st

end Opm.IncompTpfa
