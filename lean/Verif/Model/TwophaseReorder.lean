import Verif.Model.MiscUtil
import Verif.Model.RootFinders
import Verif.Model.Tof
/-!
# Two-phase transport by reordering

Models `opm/core/transport/reorder/TransportSolverTwophaseReorder.cpp`: the implicit solver without gravity, with the option `EXPERIMENT_GAUSS_SEIDEL` that the
file defines.  Numbers are exact rationals.  The rock and fluid properties are functions given by the caller; the division by the total mobility is Lean's (zero
for a zero denominator), and the theorems require a positive total mobility.
-/

namespace Opm.TwophaseReorder
open Opm

/-- What the solver uses of `IncompPropertiesInterface`: the relative permeabilities of a cell at given saturations, and the viscosities. -/
structure Fluid where
  relperm : Nat → Rat → Rat → Rat × Rat
  mu : Rat × Rat

/-- `mobility(s, cell, mob)`.  Models: `TransportSolverTwophaseReorder.cpp:528-534`. -/
def mobility (F : Fluid) (s : Rat) (cell : Nat) : Rat × Rat :=
  ((F.relperm cell s (1 - s)).1 / F.mu.1, (F.relperm cell s (1 - s)).2 / F.mu.2)

/-- `fracFlow(s, cell)`.  Models: `TransportSolverTwophaseReorder.cpp:455-463`. -/
def fracFlow (F : Fluid) (s : Rat) (cell : Nat) : Rat := (mobility F s cell).1 / ((mobility F s cell).1 + (mobility F s cell).2)

/-- The arguments of `solve` and of the constructor. -/
structure Env where
  g : GridTopo
  fluid : Fluid
  tol : Rat
  maxit : Int
  flux : List Rat
  pv : List Rat
  src : List Rat
  dt : Rat

/-- `saturation_`, `fractionalflow_` and `reorder_iterations_`. -/
structure State where
  sat : List Rat
  ff : List Rat
  iters : List Nat
  deriving DecidableEq, Repr

/-- The members of `Residual` other than the cell and the solver.  Models: `TransportSolverTwophaseReorder.cpp:135-143`. -/
structure Residual where
  s0 : Rat
  influx : Rat
  outflux : Rat
  comp : Rat
  dtpv : Rat
  deriving DecidableEq, Repr

/-- One face of the cell.  Models: `TransportSolverTwophaseReorder.cpp:157-176`; the flux and the other cell as in `TofReorder.cpp`. -/
def residualFace (E : Env) (ff : List Rat) (cell i : Nat) (r : Residual) : M Residual := do
  let f ← rd E.g.cellFaces i
  let x ← Tof.cellFlux E.g E.flux cell f
  if x.2 ≠ -1 then
    if x.1 < 0 then do
      let v ← rdI ff x.2
      .ok { r with influx := r.influx + x.1 * v, comp := r.comp - x.1 }
    else .ok { r with outflux := r.outflux + x.1, comp := r.comp - x.1 }
  else .ok r

/-- The constructor of `Residual`.  Models: `TransportSolverTwophaseReorder.cpp:144-178`. -/
def mkResidual (E : Env) (s : State) (cell : Nat) : M Residual := do
  let s0 ← rd s.sat cell
  let q ← rd E.src cell
  let p ← rd E.pv cell
  let dtpv ← fdiv E.dt p
  let influx := if -q < 0 then -q else 0
  let outflux := if ¬ -q < 0 then -q else 0
  Reorder.cellLoop E.g (residualFace E s.ff) cell { s0, influx, outflux, comp := q, dtpv }

/-- `Residual::operator()`.  Models: `TransportSolverTwophaseReorder.cpp:179-182`. -/
def Residual.eval (F : Fluid) (cell : Nat) (r : Residual) (s : Rat) : Rat := s - r.s0 + r.dtpv * (r.outflux * fracFlow F s cell + r.influx + s * r.comp)

/-- `solveSingleCell(cell)`.  Models: `TransportSolverTwophaseReorder.cpp:186-199`. -/
def solveSingleCell (E : Env) (cell : Nat) (s : State) : M State := do
  let r ← mkResidual E s cell
  let x ← rd s.sat cell
  let res ← RootFinders.solveGuess .warnAndContinue (r.eval E.fluid cell) x 0 1 E.maxit E.tol
  let sat ← wr s.sat cell res.value
  let n ← rd s.iters cell
  let iters ← wr s.iters cell (n + res.iterations.getD 0)
  let ff ← wr s.ff cell (fracFlow E.fluid res.value cell)
  .ok { sat, ff, iters }

/-! ### Cells in circulation -/

/-- The position of each cell in the list, `-1` for the others.  Models: `TransportSolverTwophaseReorder.cpp:326-330`. -/
def positions (nc : Nat) (cells : List Nat) : M (List Int) :=
  loop cells.length (fun i pos => do
    let c ← rd cells i
    wr pos c (i : Int)) (List.replicate nc (-1))

/-- The fractional flows at the beginning.  Models: `TransportSolverTwophaseReorder.cpp:340-342`, without `s0`. -/
def initFlows (E : Env) (cells : List Nat) (s : State) : M State :=
  loop cells.length (fun i s => do
    let c ← rd cells i
    let x ← rd s.sat c
    let ff ← wr s.ff c (fracFlow E.fluid x c)
    .ok { s with ff }) s

/-- The saturations at the beginning.  Models: `TransportSolverTwophaseReorder.cpp:336`, `:343`. -/
def initSats (cells : List Nat) (s : State) : M (List Rat) :=
  loop cells.length (fun i s0 => do
    let c ← rd cells i
    let x ← rd s.sat c
    wr s0 i x) (List.replicate cells.length 0)

/-- Mark the cells downwind.  Models: `TransportSolverTwophaseReorder.cpp:389-394`. -/
def markDownwind (ia ja : List Nat) (pos : List Int) (cell : Nat) (marks : List Nat) : M (List Nat) := do
  let a ← rd ia cell
  let b ← rd ia (cell + 1)
  forRange a b (fun j marks => do
    let d ← rd ja j
    let ci ← rd pos d
    if ci ≠ -1 then wrI marks ci 1 else .ok marks) marks

/-- The state of the iteration: the solver's state, `needs_update` and `update_count`. -/
structure Iter where
  st : State
  marks : List Nat
  count : Nat
  deriving DecidableEq, Repr

/-- `const double tol = 1e-9`.  Models: `TransportSolverTwophaseReorder.cpp:333`. -/
def sweepTol : Rat := 1 / 10 ^ 9

/-- If the saturation changed by more than the tolerance, mark the cells downwind.  Models: `TransportSolverTwophaseReorder.cpp:386-400`. -/
def newMarks (ia ja : List Nat) (pos : List Int) (cell : Nat) (old new : Rat) (marks : List Nat) : M (List Nat) :=
  if max (new - old) (-(new - old)) > sweepTol then markDownwind ia ja pos cell marks else .ok marks

/-- One cell of a sweep.  Models: `TransportSolverTwophaseReorder.cpp:378-402`. -/
def updateCell (E : Env) (ia ja cells : List Nat) (pos : List Int) (s0 : List Rat) (i : Nat) (t : Iter) : M Iter := do
  let m ← rd t.marks i
  if m = 0 then .ok t
  else do
    let c ← rd cells i
    let old ← rd t.st.sat c
    let x ← rd s0 i
    let sat ← wr t.st.sat c x
    let st ← solveSingleCell E c { t.st with sat }
    let new ← rd st.sat c
    let marks ← newMarks ia ja pos c old new t.marks
    let marks ← wr marks i 0
    .ok { st, marks, count := t.count + 1 }

/-- The `do … while` loop, which does at most the given number of sweeps, and the test after it.  Models: `TransportSolverTwophaseReorder.cpp:351-413`. -/
def sweeps (E : Env) (ia ja cells : List Nat) (pos : List Int) (s0 : List Rat) : Nat → State → List Nat → M State
  | 0, _, _ => .error .thrown
  | k + 1, st, marks => do
    let t ← loop cells.length (updateCell E ia ja cells pos s0) { st, marks, count := 0 }
    if 0 < t.count then sweeps E ia ja cells pos s0 k t.st t.marks else .ok t.st

/-- `solveMultiCell`.  Models: `TransportSolverTwophaseReorder.cpp:240-415`. -/
def solveMultiCell (E : Env) (ia ja : List Nat) (cells : List Nat) (s : State) : M State := do
  let pos ← positions E.g.nc cells
  let s0 ← initSats cells s
  let s ← initFlows E cells s
  sweeps E ia ja cells pos s0 300 s (List.replicate cells.length 1)

/-- The calls of `reorderAndTransport`.  Models: `ReorderSolverInterface.cpp:57-62`. -/
def solveCall (E : Env) (ia ja : List Nat) (s : State) : Reorder.Call → M State
  | .single c => solveSingleCell E c s
  | .multi cs => solveMultiCell E ia ja cs s

/-- `solve`: `both` are the saturations of both phases in the state, `ff` the fractional flows left by earlier calls.  The buffers for the graphs are overwritten.
Models: `TransportSolverTwophaseReorder.cpp:92-120`. -/
def solve (fuel : Nat) (E : Env) (sat ff both : List Rat) : M (List Rat × List Nat) := do
  let sat ← MiscUtil.toWaterSat both sat
  let nc := E.g.nc
  let _ ← Reorder.computeSequenceGraph fuel E.g E.flux (List.replicate nc 0) (List.replicate (nc + 1) 0) (List.replicate (nc + 1) 0) (List.replicate E.g.nf 0)
  let x ← Reorder.computeSequenceGraph fuel E.g (E.flux.map (fun q => -q)) (List.replicate nc 0) (List.replicate (nc + 1) 0) (List.replicate (nc + 1) 0)
    (List.replicate E.g.nf 0)
  let calls ← Reorder.reorderAndTransport fuel E.g E.flux [] []
  let s ← calls.foldlM (solveCall E x.2.1 x.2.2) { sat, ff, iters := List.replicate nc 0 }
  let both ← MiscUtil.toBothSat s.sat both
  .ok (both, s.iters)

end Opm.TwophaseReorder
