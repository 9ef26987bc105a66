import Verif.Model.CfsTpfa
import Verif.Model.IncompTpfa
import Verif.Model.MiscBlackoil
/-!
# The pressure solver for compressible fluids

Models `opm/core/pressure/CompressibleTpfa.cpp`.  The linear solver is a parameter: `ls h` is what it writes for the system held by `h`; LAPACK is one as in `Model/CfsTpfa.lean`.  The
properties are functions given by the caller, for one point at a time.  The wells are observed by the object and may get other controls between calls, so they are arguments.  Printing is left
out; `cell_voldisc_`, which is always zero, and `cell_viscosity_`, which is used in the same function only, too; numbers are exact.
-/

namespace Opm.CompressibleTpfa
open Opm Opm.CfsTpfa
open _root_.Opm.IfsTpfa (index numWells)
open _root_.Opm.MiscBlackoil (sub)
open _root_.Opm.MiscUtil (vresize)

/-- `BlackoilPropertiesInterface`: pressure, surface volumes and cell give matrix, derivative and viscosities; saturations and cell give relative permeabilities; a matrix gives
densities.  Models: `BlackoilPropertiesInterface.hpp:36-157`. -/
structure Fluid where
  np : Nat
  matrix : Rat → List Rat → Nat → Block
  dmatrix : Rat → List Rat → Nat → Block
  viscosity : Rat → List Rat → Nat → Block
  relperm : List Rat → Nat → Block
  density : List Rat → Block

/-- What is given to the constructor, apart from the wells.  An absent gravity vector or rock compressibility is a null pointer.  Models: `CompressibleTpfa.cpp:62-80`. -/
structure Input where
  G : GridTopo
  geo : Trans.Geo
  vol : List Rat
  fluid : Fluid
  perm : List Rat
  porosity : List Rat
  rock : Option Rock.RockComp
  residualTol : Rat
  changeTol : Rat
  maxiter : Int
  gravity : Option (List Rat)

/-- The members that are computed.  Models: `CompressibleTpfa.hpp:129-159`. -/
structure Solver where
  htrans : List Rat
  trans : List Rat
  wdp : List Rat
  initialPv : List Rat
  cellA : List Rat
  cellDA : List Rat
  cellMob : List Rat
  faceA : List Rat
  faceMob : List Rat
  gravcap : List Rat
  perfA : List Rat
  perfMob : List Rat
  porevol : List Rat
  rockComp : List Rat
  inc : List Rat
  singular : Bool
  h : Data

/-- `BlackoilState` and `WellState`: the parts used. -/
structure State where
  pressure : List Rat
  surfacevol : List Rat
  saturation : List Rat
  faceflux : List Rat
  facepressure : List Rat
  bhp : List Rat
  perfRates : List Rat
  perfPress : List Rat
  deriving DecidableEq

/-- `std::copy(v, v + n, &a[off])`. -/
def put (a : List Rat) (off n : Nat) (v : Block) : M (List Rat) :=
  if off + n ≤ a.length then .ok ((List.range a.length).map (fun k => if off ≤ k ∧ k < off + n then v (k - off) else a.getD k 0)) else .error .ub

/-- `std::transform(a, a + n, b, a, std::divides<double>())`. -/
def divide (n : Nat) (a b : Block) : M Block := if (List.range n).all (fun p => decide (b p ≠ 0)) then .ok (fun p => a p / b p) else .error .nonFinite

/-- The phases of the wells are those of the fluid.  Models: `CompressibleTpfa.cpp:84-87`. -/
def checkPhases (I : Input) (W : Option Wells.W) : M Unit :=
  match W with
  | none => .ok ()
  | some W => if W.np ≠ I.fluid.np then .error .thrown else .ok ()

/-- `rock_comp_props_ && rock_comp_props_->isActive()`. -/
def activeRock (I : Input) : Option Rock.RockComp :=
  match I.rock with
  | none => none
  | some r => if r.isActive then some r else none

/-- `porevol_` at construction.  Models: `CompressibleTpfa.cpp:96-98`. -/
def fixedPorevol (I : Input) : M (List Rat) :=
  match activeRock I with
  | none => MiscUtil.computePorevolume I.G.nc I.vol I.porosity []
  | some _ => .ok []

/-- The constructor.  Models: `CompressibleTpfa.cpp:62-107`. -/
def make (junk : Nat → Nat) (jd : Nat → Rat) (jc : Nat → Comp) (I : Input) (W : Option Wells.W) : M Solver := do
  let n ← rd I.G.cellFacepos I.G.nc
  checkPhases I W
  let ht ← Trans.htransCompute I.G I.geo I.perm (List.replicate n 0)
  let t ← Trans.transCompute I.G ht (List.replicate I.G.nf 0)
  let pv ← fixedPorevol I
  let h ← construct junk jd jc I.G W
  .ok { htrans := ht, trans := t, wdp := [], initialPv := [], cellA := [], cellDA := [], cellMob := [], faceA := [], faceMob := [], gravcap := [], perfA := [], perfMob := [],
        porevol := pv, rockComp := [], inc := List.replicate (I.G.nc + numWells W) 0, singular := false, h := h }

/-- `gravity_ ? gravity_[dim - 1] : 0.0`.  Models: `CompressibleTpfa.cpp:219`, `:358`. -/
def down (I : Input) : M Rat :=
  match I.gravity with
  | none => .ok 0
  | some g => rd g (I.geo.d - 1)

/-- The pressure difference between perforation `j` and the reference depth of its well.  Models: `CompressibleTpfa.cpp:236-246`. -/
def perfOffset (I : Input) (W : Wells.W) (st : State) (grav ref : Rat) (j : Nat) : M Rat := do
  let c ← rd W.cells j
  let c ← index c
  let z ← rd I.geo.cellCentroids (c * I.geo.d + (I.geo.d - 1))
  let p ← rd st.pressure c
  let sv ← sub st.surfacevol (c * I.fluid.np) I.fluid.np
  let s ← block st.saturation (c * I.fluid.np) I.fluid.np
  let rho := I.fluid.density ((List.range (I.fluid.np * I.fluid.np)).map (I.fluid.matrix p sv c))
  .ok (sumN I.fluid.np (fun q => s q * rho q * grav * (z - ref)))

/-- `computeWellPotentials(state)`.  Models: `CompressibleTpfa.cpp:211-248`. -/
def wellPotentials (I : Input) (W : Option Wells.W) (st : State) (wdp : List Rat) : M (List Rat) :=
  match W with
  | none => .ok wdp
  | some W => do
    let n ← rd W.connpos W.nw
    let grav ← down I
    if grav = 0 then .ok (List.replicate n 0)
    else rowLoopPre W.nw W.connpos (fun w => rd W.depthRef w) (fun _ ref j wdp => do
      let v ← perfOffset I W st grav ref j
      addAt wdp j v) (List.replicate n 0)

/-- `initial_porevol_`.  Models: `CompressibleTpfa.cpp:259-261`. -/
def initialPart (I : Input) (st : State) (old : List Rat) : M (List Rat) :=
  match activeRock I with
  | none => .ok old
  | some r => MiscUtil.computePorevolumeComp r.poroMult I.G.nc I.vol I.porosity st.pressure old

/-- `computePerSolveDynamicData(dt, state, well_state)`.  Models: `CompressibleTpfa.cpp:254-262`. -/
def perSolve (I : Input) (W : Option Wells.W) (st : State) (S : Solver) : M Solver := do
  let wdp ← wellPotentials I W st S.wdp
  let pv ← initialPart I st S.initialPv
  .ok { S with wdp := wdp, initialPv := pv }

/-- Calls of properties of pressure and surface volumes for all cells.  Models: `CompressibleTpfa.cpp:315-319`. -/
def cellBlocks (I : Input) (st : State) (n : Nat) (f : Rat → List Rat → Nat → Block) (a : List Rat) : M (List Rat) :=
  loop I.G.nc (fun c a => do
    let p ← rd st.pressure c
    let z ← sub st.surfacevol (c * I.fluid.np) I.fluid.np
    put a (c * n) n (f p z c)) (vresize a (I.G.nc * n))

/-- `cell_phasemob_`.  Models: `CompressibleTpfa.cpp:318-325`. -/
def cellMobilities (I : Input) (st : State) (a : List Rat) : M (List Rat) :=
  loop I.G.nc (fun c a => do
    let p ← rd st.pressure c
    let z ← sub st.surfacevol (c * I.fluid.np) I.fluid.np
    let s ← sub st.saturation (c * I.fluid.np) I.fluid.np
    let m ← divide I.fluid.np (I.fluid.relperm s c) (I.fluid.viscosity p z c)
    put a (c * I.fluid.np) I.fluid.np m) (vresize a (I.G.nc * I.fluid.np))

/-- `porevol_` and `rock_comp_`.  Models: `CompressibleTpfa.cpp:333-339`. -/
def rockPart (I : Input) (st : State) (pv rc : List Rat) : M (List Rat × List Rat) :=
  match activeRock I with
  | none => .ok (pv, rc)
  | some r => do
    let pv ← MiscUtil.computePorevolumeComp r.poroMult I.G.nc I.vol I.porosity st.pressure pv
    let rc ← loop I.G.nc (fun c a => do
      let p ← rd st.pressure c
      let v ← r.rockComp p
      wr a c v) (vresize rc I.G.nc)
    .ok (pv, rc)

/-- `computeCellDynamicData(dt, state, well_state)`.  Models: `CompressibleTpfa.cpp:296-340`. -/
def cellData (I : Input) (st : State) (S : Solver) : M Solver := do
  let A ← cellBlocks I st (I.fluid.np * I.fluid.np) I.fluid.matrix S.cellA
  let dA ← cellBlocks I st (I.fluid.np * I.fluid.np) I.fluid.dmatrix S.cellDA
  let m ← cellMobilities I st S.cellMob
  let r ← rockPart I st S.porevol S.rockComp
  .ok { S with cellA := A, cellDA := dA, cellMob := m, porevol := r.1, rockComp := r.2 }

/-- Pressure and gravity contribution of one side of face `f`.  Models: `CompressibleTpfa.cpp:374-397`. -/
def side (I : Input) (st : State) (A : List Rat) (grav fz : Rat) (f : Nat) (c : Int) : M (Rat × Block) :=
  if 0 ≤ c then do
    let p ← rd st.pressure c.toNat
    if grav ≠ 0 then do
      let z ← rd I.geo.cellCentroids (c.toNat * I.geo.d + (I.geo.d - 1))
      let a ← sub A (c.toNat * (I.fluid.np * I.fluid.np)) (I.fluid.np * I.fluid.np)
      .ok (p, fun q => I.fluid.density a q * ((fz - z) * grav))
    else .ok (p, fun _ => 0)
  else do
    let p ← rd st.facepressure f
    .ok (p, fun _ => 0)

/-- `operator<` for vectors of doubles with `n` elements from position `i` on. -/
def vectorLess (a b : Block) : Nat → Nat → Bool
  | _, 0 => false
  | i, n + 1 => if a i < b i then true else if b i < a i then false else vectorLess a b (i + 1) n

/-- `upwindc`.  The expression does not depend on the phase of the loop it stands in.  Models: `CompressibleTpfa.cpp:430-435`. -/
def upwind (np : Nat) (c1 c2 : Int) (pot1 pot2 : Block) : M Nat :=
  if 0 ≤ c1 ∧ 0 ≤ c2 then index (if vectorLess pot1 pot2 0 np then c2 else c1)
  else index (if 0 ≤ c1 then c1 else c2)

/-- One face of the loop; the result are `face_A_`, `face_phasemob_` and `face_gravcap_`.  Models: `CompressibleTpfa.cpp:367-443`. -/
def faceStep (I : Input) (st : State) (S : Solver) (grav : Rat) (f : Nat) (t : List Rat × List Rat × List Rat) : M (List Rat × List Rat × List Rat) := do
  let fz ← rd I.geo.faceCentroids (f * I.geo.d + (I.geo.d - 1))
  let c1 ← rd I.G.faceCells (2 * f)
  let c2 ← rd I.G.faceCells (2 * f + 1)
  let s1 ← side I st S.cellA grav fz f c1
  let s2 ← side I st S.cellA grav fz f c2
  let g ← put t.2.2 (f * I.fluid.np) I.fluid.np (fun p => s1.2 p - s2.2 p)
  let u ← upwind I.fluid.np c1 c2 (fun p => s1.1 + (s1.2 p - s2.2 p)) (fun _ => s2.1)
  let m ← block S.cellMob (u * I.fluid.np) I.fluid.np
  let m' ← put t.2.1 (f * I.fluid.np) I.fluid.np m
  let a ← block S.cellA (u * (I.fluid.np * I.fluid.np)) (I.fluid.np * I.fluid.np)
  let a' ← put t.1 (f * (I.fluid.np * I.fluid.np)) (I.fluid.np * I.fluid.np) a
  .ok (a', m', g)

/-- `computeFaceDynamicData(dt, state, well_state)`.  Models: `CompressibleTpfa.cpp:346-444`. -/
def faceData (I : Input) (st : State) (S : Solver) : M Solver := do
  let grav ← down I
  let t ← loop I.G.nf (fun f t => faceStep I st S grav f t)
    (vresize S.faceA (I.G.nf * (I.fluid.np * I.fluid.np)), vresize S.faceMob (I.G.nf * I.fluid.np), vresize S.gravcap (I.G.nf * I.fluid.np))
  .ok { S with faceA := t.1, faceMob := t.2.1, gravcap := t.2.2 }

/-- Matrix and mobilities of perforation `j` of well `w`.  Models: `CompressibleTpfa.cpp:473-496`. -/
def perfBlocks (I : Input) (W : Wells.W) (st : State) (S : Solver) (w : Nat) (ty : Wells.WellType) (j : Nat) : M (Block × Block) := do
  let c ← rd W.cells j
  let c ← index c
  match ty with
  | .producer => do
    let a ← block S.cellA (c * (I.fluid.np * I.fluid.np)) (I.fluid.np * I.fluid.np)
    let m ← block S.cellMob (c * I.fluid.np) I.fluid.np
    .ok (a, m)
  | .injector => do
    let b ← rd st.bhp w
    let d ← rd S.wdp j
    let frac ← sub W.compFrac (w * I.fluid.np) I.fluid.np
    check (decide (|frac.sum - 1| < 1 / 1000000))
    let m ← divide I.fluid.np (I.fluid.relperm frac c) (I.fluid.viscosity (b + d) frac c)
    .ok (I.fluid.matrix (b + d) frac c, m)

/-- `computeWellDynamicData(dt, state, well_state)`.  Models: `CompressibleTpfa.cpp:450-499`. -/
def wellData (I : Input) (W : Option Wells.W) (st : State) (S : Solver) : M Solver :=
  match W with
  | none => .ok { S with perfA := [], perfMob := [] }
  | some W => do
    let n ← rd W.connpos W.nw
    let t ← rowLoopPre W.nw W.connpos (fun w => rd W.type w) (fun w ty j (t : List Rat × List Rat) => do
      let v ← perfBlocks I W st S w ty j
      let a ← put t.1 (j * (I.fluid.np * I.fluid.np)) (I.fluid.np * I.fluid.np) v.1
      let m ← put t.2 (j * I.fluid.np) I.fluid.np v.2
      .ok (a, m)) (vresize S.perfA (n * (I.fluid.np * I.fluid.np)), vresize S.perfMob (n * I.fluid.np))
    .ok { S with perfA := t.1, perfMob := t.2 }

/-- `computePerIterationDynamicData(dt, state, well_state)`.  Models: `CompressibleTpfa.cpp:268-289`. -/
def perIteration (I : Input) (W : Option Wells.W) (st : State) (S : Solver) : M Solver := do
  let S ← cellData I st S
  let S ← faceData I st S
  wellData I W st S

/-- `forces`.  Models: `CompressibleTpfa.cpp:513-522`, `:600-609`. -/
def forces (W : Option Wells.W) (S : Solver) : Forces := { wells := W.map (fun W => (W, { wdp := S.wdp, A := S.perfA, phasemob := S.perfMob })), src := none }

/-- `cq`.  Models: `CompressibleTpfa.cpp:523-529`. -/
def quantities (I : Input) (S : Solver) : Quantities := { np := I.fluid.np, Ac := S.cellA, dAc := S.cellDA, Af := S.faceA, phasemobf := S.faceMob }

/-- `assemble(dt, state, well_state)`.  Models: `CompressibleTpfa.cpp:505-544`. -/
def assembleStep (lu : Lapack) (I : Input) (W : Option Wells.W) (dt : Rat) (st : State) (S : Solver) : M Solver :=
  match activeRock I with
  | none => do
    let r ← assemble lu I.G dt (forces W S) st.surfacevol (quantities I S) S.trans S.gravcap st.pressure st.bhp S.porevol S.h
    .ok { S with h := r.1, singular := r.2 }
  | some _ => do
    let r ← comprockAssemble lu I.G dt (forces W S) st.surfacevol (quantities I S) S.trans S.gravcap st.pressure st.bhp S.porevol S.initialPv S.rockComp S.h
    .ok { S with h := r.1, singular := r.2 }

/-- `residualNorm()`, `incrementNorm()`, with `infnorm` as in `IncompTpfa.cpp`.  Models: `CompressibleTpfa.cpp:561-590`. -/
def norm (S : Solver) (l : List Rat) : Rat := IncompTpfa.infnorm (l.take S.inc.length)

/-- Adding the increment to the pressures.  Models: `CompressibleTpfa.cpp:151-156`. -/
def update (I : Input) (W : Option Wells.W) (x : List Rat) (st : State) : M State := do
  let p ← loop I.G.nc (fun c p => do
    let v ← rd x c
    addAt p c v) st.pressure
  let b ← loop (numWells W) (fun w b => do
    let v ← rd x (I.G.nc + w)
    addAt b w v) st.bhp
  .ok { st with pressure := p, bhp := b }

/-- Where the iteration stands: iterations left, members, state, norms of residual and increment. -/
structure Iter where
  left : Nat
  S : Solver
  st : State
  res : Rat
  inc : Rat

/-- The `while` loop, with the number of iterations that are left; `solveIncrement` is in it.  Models: `CompressibleTpfa.cpp:143-179`, `:550-556`. -/
def newton (lu : Lapack) (ls : Data → List Rat) (I : Input) (W : Option Wells.W) (dt : Rat) : Nat → Solver → State → Rat → Rat → M Iter
  | 0, S, st, res, inc => .ok ⟨0, S, st, res, inc⟩
  | n + 1, S, st, res, inc =>
    if res > I.residualTol then do
      let S := { S with inc := (ls S.h).map (fun v => -v) }
      let st ← update I W S.inc st
      let inc := norm S S.inc
      if inc ≤ I.changeTol then .ok ⟨n, S, st, res, inc⟩
      else do
        let S ← perIteration I W st S
        let S ← assembleStep lu I W dt st S
        newton lu ls I W dt n S st (norm S S.h.sys.b) inc
    else .ok ⟨n + 1, S, st, res, inc⟩

/-- A pointer to the elements of a vector, null if there are none. -/
def ptr (l : List Rat) : Option (List Rat) := if l.isEmpty then none else some l

/-- Pressures of perforations.  Models: `CompressibleTpfa.cpp:635-644`. -/
def perfPressures (W : Option Wells.W) (S : Solver) (bhp perfPress : List Rat) : M (List Rat) :=
  match W with
  | none => .ok perfPress
  | some W => rowLoop W.nw W.connpos (fun w j a => do
    let b ← rd bhp w
    let d ← rd S.wdp j
    wr a j (b + d)) perfPress

/-- `computeResults(state, well_state)`.  Models: `CompressibleTpfa.cpp:596-645`. -/
def results (I : Input) (W : Option Wells.W) (S : Solver) (st : State) : M (Solver × State) := do
  let q ← flux I.G (forces W S) I.fluid.np S.trans S.cellMob S.faceMob S.gravcap st.pressure (ptr st.bhp) st.faceflux (ptr st.perfRates)
  let p ← fpress I.G S.htrans st.pressure st.facepressure S.h
  let w ← perfPressures W S st.bhp st.perfPress
  .ok ({ S with h := p.2 }, { st with faceflux := q.1, perfRates := q.2.getD st.perfRates, facepressure := p.1, perfPress := w })

/-- `solve(dt, state, well_state)`.  Models: `CompressibleTpfa.cpp:122-189`. -/
def solve (lu : Lapack) (ls : Data → List Rat) (I : Input) (W : Option Wells.W) (dt : Rat) (S : Solver) (st : State) : M (Solver × State) := do
  let S ← perSolve I W st S
  let S ← perIteration I W st S
  let S ← assembleStep lu I W dt st S
  let k ← newton lu ls I W dt I.maxiter.toNat S st (norm S S.h.sys.b) 0
  if k.left = 0 ∧ 0 ≤ I.maxiter ∧ k.res > I.residualTol ∧ k.inc > I.changeTol then .error .thrown
  else results I W k.S k.st

/-- `singularPressure()`.  Models: `CompressibleTpfa.cpp:201-204`. -/
def singularPressure (S : Solver) : Bool := S.singular

end Opm.CompressibleTpfa
