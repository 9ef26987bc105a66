import Verif.Model.TwophaseReorder
/-!
# Compressible two-phase transport by reordering

Models `opm/core/transport/reorder/TransportSolverCompressibleTwophaseReorder.cpp` (the implicit solver without gravity) and `computeSurfacevol` of
`opm/core/utility/miscUtilitiesBlackoil.cpp`.  Numbers are exact rationals.  The rock and fluid properties are given by the caller: relative permeabilities as a
function, viscosities and the matrices `A` as the arrays that `props_.viscosity` and `props_.matrix` fill for the pressures.  The division by the total mobility is
Lean's (zero for a zero denominator), and the theorems require a positive total mobility.  The parts of the file that repeat
`TransportSolverTwophaseReorder.cpp` word for word reuse its model, and so does the state, whose iteration counts are left alone here.
-/

namespace Opm.CompressibleReorder
open Opm
open Opm.TwophaseReorder (State Iter positions initSats newMarks)

/-- The arguments of `solve` and of the constructor, with the properties at the pressures of `solve`. -/
structure Env where
  g : GridTopo
  relperm : Nat → Rat → Rat → Rat × Rat
  visc : List Rat
  A : List Rat
  tol : Rat
  maxit : Int
  flux : List Rat
  pv0 : List Rat
  pv : List Rat
  src : List Rat
  surfvol : List Rat
  dt : Rat

/-- `mobility(s, cell, mob)`.  The viscosities are there: the constructor makes `visc_` fit.  Models: `TransportSolverCompressibleTwophaseReorder.cpp:379-385`. -/
def mobility (E : Env) (s : Rat) (cell : Nat) : Rat × Rat :=
  ((E.relperm cell s (1 - s)).1 / E.visc.getD (2 * cell) 0, (E.relperm cell s (1 - s)).2 / E.visc.getD (2 * cell + 1) 0)

/-- `fracFlow(s, cell)`.  Models: `TransportSolverCompressibleTwophaseReorder.cpp:306-314`. -/
def fracFlow (E : Env) (s : Rat) (cell : Nat) : Rat := (mobility E s cell).1 / ((mobility E s cell).1 + (mobility E s cell).2)

/-- The members of `Residual` other than the cell and the solver.  Models: `TransportSolverCompressibleTwophaseReorder.cpp:137-147`. -/
structure Residual where
  bcell : Rat
  z0 : Rat
  influx : Rat
  outflux : Rat
  comp : Rat
  dtpv : Rat
  deriving DecidableEq, Repr

/-- One face of the cell.  Models: `TransportSolverCompressibleTwophaseReorder.cpp:161-181`; the flux and the other cell as in `TofReorder.cpp`. -/
def residualFace (E : Env) (ff : List Rat) (cell i : Nat) (r : Residual) : M Residual := do
  let f ← rd E.g.cellFaces i
  let x ← Tof.cellFlux E.g E.flux cell f
  if x.2 ≠ -1 then
    if x.1 < 0 then do
      let b ← rdI E.A (4 * x.2)
      let v ← rdI ff x.2
      .ok { r with influx := r.influx + r.bcell * b * x.1 * v }
    else .ok { r with outflux := r.outflux + x.1 }
  else .ok r

/-- The constructor of `Residual`.  Models: `TransportSolverCompressibleTwophaseReorder.cpp:148-182`. -/
def mkResidual (E : Env) (ff : List Rat) (cell : Nat) : M Residual := do
  let z0 ← rd E.surfvol (2 * cell)
  let a ← rd E.A (4 * cell)
  let bcell ← fdiv 1 a
  let q ← rd E.src cell
  let influx := if -q < 0 then bcell * -q else 0
  let outflux := if ¬ -q < 0 then -q else 0
  let p ← rd E.pv cell
  let p0 ← rd E.pv0 cell
  let comp ← fdiv (p - p0) p0
  let dtpv ← fdiv E.dt p0
  Reorder.cellLoop E.g (residualFace E ff) cell { bcell, z0, influx, outflux, comp, dtpv }

/-- `Residual::operator()`.  Models: `TransportSolverCompressibleTwophaseReorder.cpp:183-187`. -/
def Residual.eval (E : Env) (cell : Nat) (r : Residual) (s : Rat) : Rat :=
  s - r.bcell * r.z0 + r.dtpv * (r.outflux * fracFlow E s cell + r.influx) + s * r.comp

/-- `solveSingleCell(cell)`.  Models: `TransportSolverCompressibleTwophaseReorder.cpp:191-197`. -/
def solveSingleCell (E : Env) (cell : Nat) (s : State) : M State := do
  let r ← mkResidual E s.ff cell
  let x ← rd s.sat cell
  let res ← RootFinders.solveGuess .warnAndContinue (r.eval E cell) x 0 1 E.maxit E.tol
  let sat ← wr s.sat cell res.value
  let ff ← wr s.ff cell (fracFlow E res.value cell)
  .ok { s with sat, ff }

/-- The fractional flows at the beginning.  Models: `TransportSolverCompressibleTwophaseReorder.cpp:226-228`, without `s0`. -/
def initFlows (E : Env) (cells : List Nat) (s : State) : M State :=
  loop cells.length (fun i s => do
    let c ← rd cells i
    let x ← rd s.sat c
    let ff ← wr s.ff c (fracFlow E x c)
    .ok { s with ff }) s

/-- One cell of a sweep; the tolerance and the marks are those of the incompressible solver.  Models: `TransportSolverCompressibleTwophaseReorder.cpp:262-288`. -/
def updateCell (E : Env) (ia ja cells : List Nat) (pos : List Int) (s0 : List Rat) (i : Nat) (t : Iter) : M Iter := do
  let m ← rd t.marks i
  if m = 0 then .ok t
  else do
    let c ← rd cells i
    let old ← rd t.st.sat c
    let x ← rd s0 i
    let sat ← wr t.st.sat c x
    let st ← solveSingleCell E c { t.st with sat }
    let new ← rd st.sat c
    let marks ← newMarks ia ja pos c old new t.marks
    let marks ← wr marks i 0
    .ok { st, marks, count := t.count + 1 }

/-- The `do … while` loop, which does at most the given number of sweeps, and the test after it.  Models: `TransportSolverCompressibleTwophaseReorder.cpp:238-299`. -/
def sweeps (E : Env) (ia ja cells : List Nat) (pos : List Int) (s0 : List Rat) : Nat → State → List Nat → M State
  | 0, _, _ => .error .thrown
  | k + 1, st, marks => do
    let t ← loop cells.length (updateCell E ia ja cells pos s0) { st, marks, count := 0 }
    if 0 < t.count then sweeps E ia ja cells pos s0 k t.st t.marks else .ok t.st

/-- `solveMultiCell`.  Models: `TransportSolverCompressibleTwophaseReorder.cpp:200-304`. -/
def solveMultiCell (E : Env) (ia ja : List Nat) (cells : List Nat) (s : State) : M State := do
  let pos ← positions E.g.nc cells
  let s0 ← initSats cells s
  let s ← initFlows E cells s
  sweeps E ia ja cells pos s0 300 s (List.replicate cells.length 1)

/-- The calls of `reorderAndTransport`.  Models: `ReorderSolverInterface.cpp:57-62`. -/
def solveCall (E : Env) (ia ja : List Nat) (s : State) : Reorder.Call → M State
  | .single c => solveSingleCell E c s
  | .multi cs => solveMultiCell E ia ja cs s

/-- `computeSurfacevol(n, np, A, saturation, surfacevol)`.  Models: `miscUtilitiesBlackoil.cpp:260-277`. -/
def computeSurfacevol (n np : Nat) (A sat z : List Rat) : M (List Rat) := do
  let z ← loop (n * np) (fun k z => wr z k 0) z
  loop n (fun i z =>
    loop np (fun col z =>
      loop np (fun row z => do
        let a ← rd A (i * np * np + row + col * np)
        let s ← rd sat (i * np + col)
        let y ← rd z (i * np + row)
        wr z (i * np + row) (y + a * s)) z) z) z

/-- `solve`: `both` are the saturations of both phases in the state, `ff` the fractional flows left by earlier calls; the result has the new saturations and the new
surface volumes.  The buffers for the graphs are overwritten.  Models: `TransportSolverCompressibleTwophaseReorder.cpp:80-122`. -/
def solve (fuel : Nat) (E : Env) (sat ff both : List Rat) : M (List Rat × List Rat) := do
  let sat ← MiscUtil.toWaterSat both sat
  let a1 ← rd E.A 1
  let a2 ← rd E.A 2
  if a1 ≠ 0 ∨ a2 ≠ 0 then .error .thrown
  else do
    let nc := E.g.nc
    let _ ← Reorder.computeSequenceGraph fuel E.g E.flux (List.replicate nc 0) (List.replicate (nc + 1) 0) (List.replicate (nc + 1) 0) (List.replicate E.g.nf 0)
    let x ← Reorder.computeSequenceGraph fuel E.g (E.flux.map (fun q => -q)) (List.replicate nc 0) (List.replicate (nc + 1) 0) (List.replicate (nc + 1) 0)
      (List.replicate E.g.nf 0)
    let calls ← Reorder.reorderAndTransport fuel E.g E.flux [] []
    let s ← calls.foldlM (solveCall E x.2.1 x.2.2) { sat, ff, iters := [] }
    let both ← MiscUtil.toBothSat s.sat both
    let z ← computeSurfacevol nc 2 E.A both E.surfvol
    .ok (both, z)

end Opm.CompressibleReorder
