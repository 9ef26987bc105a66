import Verif.Model.TwophaseReorder
/-!
# Gravity segregation in columns

Models the gravity part of `opm/core/transport/reorder/TransportSolverTwophaseReorder.cpp`.  The transmissibilities (`tpfa_trans_compute`) and the columns
(`extractColumn`) are modelled elsewhere and are arguments here.
-/

namespace Opm.GravitySegregation
open Opm Opm.TwophaseReorder

/-- `gdz` of a face.  Models: `TransportSolverTwophaseReorder.cpp:550-555`. -/
def depthTerm (dim : Nat) (grav centroids : List Rat) (a b : Int) : M Rat :=
  if a ≠ -1 ∧ b ≠ -1 then
    loop dim (fun d gdz => do
      let x ← rd grav d
      let ca ← rdI centroids (dim * a + d)
      let cb ← rdI centroids (dim * b + d)
      .ok (gdz + x * (ca - cb))) 0
  else .ok 0

/-- The last loop of `initGravity`: `gravflux` holds the transmissibilities.  Models: `TransportSolverTwophaseReorder.cpp:547-557`. -/
def initGravity (g : GridTopo) (dim : Nat) (grav centroids : List Rat) (rho : Rat × Rat) (gravflux : List Rat) : M (List Rat) :=
  loop g.nf (fun f gf => do
    let a ← rd g.faceCells (2 * f)
    let b ← rd g.faceCells (2 * f + 1)
    let gdz ← depthTerm dim grav centroids a b
    let t ← rd gf f
    wr gf f (t * ((rho.1 - rho.2) * gdz))) gravflux

/-- The members used by the gravity solver. -/
structure Env where
  g : GridTopo
  fluid : Fluid
  smin : List Rat
  smax : List Rat
  tol : Rat
  maxit : Int
  gravflux : List Rat
  pv : List Rat
  dt : Rat

/-- `saturation_`, `mob_` and `reorder_iterations_`. -/
structure State where
  sat : List Rat
  mob : List Rat
  iters : List Nat
  deriving DecidableEq, Repr

/-- A neighbour in the column: `gf` and its mobilities. -/
structure Neighbour where
  gf : Rat
  mobw : Rat
  mobo : Rat
  deriving DecidableEq, Repr

/-- `GravityResidual`, with what `operator()` reads of the neighbours. -/
structure Residual where
  s0 : Rat
  dtpv : Rat
  above : Option Neighbour
  below : Option Neighbour
  deriving DecidableEq, Repr

/-- The mobilities of the neighbour `cell`. -/
def neighbour (s : State) (cell : Nat) (gf : Rat) : M (Option Neighbour) := do
  let w ← rd s.mob (2 * cell)
  let o ← rd s.mob (2 * cell + 1)
  .ok (some { gf, mobw := w, mobo := o })

/-- `nbcell[0]`, `gf[0]`.  Models: `TransportSolverTwophaseReorder.cpp:488-493`. -/
def aboveOf (s : State) (cells : List Nat) (pos : Nat) (gravflux : List Rat) : M (Option Neighbour) :=
  if 0 < pos then do
    let c ← rd cells (pos - 1)
    let gf ← rd gravflux (pos - 1)
    neighbour s c (-gf)
  else .ok none

/-- `nbcell[1]`, `gf[1]`.  Models: `TransportSolverTwophaseReorder.cpp:494-499`. -/
def belowOf (s : State) (cells : List Nat) (pos : Nat) (gravflux : List Rat) : M (Option Neighbour) :=
  if pos + 1 < cells.length then do
    let c ← rd cells (pos + 1)
    let gf ← rd gravflux pos
    neighbour s c gf
  else .ok none

/-- The constructor of `GravityResidual`.  Models: `TransportSolverTwophaseReorder.cpp:481-503`. -/
def mkResidual (E : Env) (s : State) (cells : List Nat) (pos : Nat) (gravflux : List Rat) : M Residual := do
  let cell ← rd cells pos
  let above ← aboveOf s cells pos gravflux
  let below ← belowOf s cells pos gravflux
  let s0 ← rd s.sat cell
  let p ← rd E.pv cell
  let dtpv ← fdiv E.dt p
  .ok { s0, dtpv, above, below }

/-- `m[0]`, `m[1]`.  Models: `TransportSolverTwophaseReorder.cpp:511-518`. -/
def chosen (mob : Rat × Rat) (nb : Neighbour) : Rat × Rat := if nb.gf < 0 then (mob.1, nb.mobo) else (nb.mobw, mob.2)

/-- The contribution of one neighbour.  Models: `TransportSolverTwophaseReorder.cpp:509-522`. -/
def term (dtpv : Rat) (mob : Rat × Rat) : Option Neighbour → Rat
  | none => 0
  | some nb =>
    let m := chosen mob nb
    if 0 < m.1 + m.2 then -dtpv * nb.gf * m.1 * m.2 / (m.1 + m.2) else 0

/-- `GravityResidual::operator()`.  Models: `TransportSolverTwophaseReorder.cpp:504-525`. -/
def Residual.eval (F : Fluid) (cell : Nat) (r : Residual) (s : Rat) : Rat :=
  s - r.s0 + term r.dtpv (mobility F s cell) r.above + term r.dtpv (mobility F s cell) r.below

/-- The root, if the residual is not small already: the new saturation and the iterations used.  Models: `TransportSolverTwophaseReorder.cpp:575-579`. -/
def root (E : Env) (cell : Nat) (r : Residual) (x lo hi : Rat) : M (Rat × Nat) :=
  let v := r.eval E.fluid cell x
  if max v (-v) > E.tol then do
    let res ← RootFinders.solve .warnAndContinue (r.eval E.fluid cell) lo hi E.maxit E.tol
    .ok (res.value, res.iterations.getD 0)
  else .ok (x, 0)

/-- `solveSingleCellGravity`.  Models: `TransportSolverTwophaseReorder.cpp:569-582`. -/
def solveSingleCell (E : Env) (cells : List Nat) (gravflux : List Rat) (pos : Nat) (s : State) : M State := do
  let cell ← rd cells pos
  let r ← mkResidual E s cells pos gravflux
  let x ← rd s.sat cell
  let lo ← rd E.smin (2 * cell)
  let hi ← rd E.smax (2 * cell)
  let y ← root E cell r x lo hi
  let n ← rd s.iters cell
  let iters ← wr s.iters cell (n + y.2)
  let v := min (max y.1 lo) hi
  let sat ← wr s.sat cell v
  let mob ← wr s.mob (2 * cell) (mobility E.fluid v cell).1
  let mob ← wr mob (2 * cell + 1) (mobility E.fluid v cell).2
  .ok { sat, mob, iters }

/-- One face in the search for the flux towards the next cell.  Models: `TransportSolverTwophaseReorder.cpp:595-601`. -/
def columnFace (E : Env) (cell next ci j : Nat) (cf : List Rat) : M (List Rat) := do
  let f ← rd E.g.cellFaces j
  let c1 ← rd E.g.faceCells (2 * f)
  let c2 ← rd E.g.faceCells (2 * f + 1)
  if c1 = (next : Int) ∨ c2 = (next : Int) then do
    let gf ← rd E.gravflux f
    wr cf ci (if c1 = (cell : Int) then gf else -gf)
  else .ok cf

/-- `col_gravflux`.  Models: `TransportSolverTwophaseReorder.cpp:589-603`. -/
def columnFlux (E : Env) (cells : List Nat) : M (List Rat) :=
  loop (cells.length - 1) (fun ci cf => do
    let cell ← rd cells ci
    let next ← rd cells (ci + 1)
    let a ← rd E.g.cellFacepos cell
    let b ← rd E.g.cellFacepos (cell + 1)
    forRange a b (columnFace E cell next ci) cf) (List.replicate (cells.length - 1) 0)

/-- Reset the saturation and solve.  Models: `TransportSolverTwophaseReorder.cpp:620-623`. -/
def visit (E : Env) (cells : List Nat) (gravflux s0 : List Rat) (pos : Nat) (s : State) : M State := do
  let c ← rd cells pos
  let x ← rd s0 pos
  let sat ← wr s.sat c x
  solveSingleCell E cells gravflux pos { s with sat }

/-- One step of a sweep: the cell `ci` from the top and the cell `ci` from the bottom.  Models: `TransportSolverTwophaseReorder.cpp:617-625`. -/
def step (E : Env) (cells : List Nat) (gravflux s0 : List Rat) (ci : Nat) (t : State × Rat) : M (State × Rat) := do
  let a ← rd cells ci
  let b ← rd cells (cells.length - ci - 1)
  let oldA ← rd t.1.sat a
  let oldB ← rd t.1.sat b
  let s ← visit E cells gravflux s0 ci t.1
  let s ← visit E cells gravflux s0 (cells.length - ci - 1) s
  let newA ← rd s.sat a
  let newB ← rd s.sat b
  .ok (s, max t.2 (max (max (newA - oldA) (-(newA - oldA))) (max (newB - oldB) (-(newB - oldB)))))

/-- The `do … while` loop and the test after it.  Models: `TransportSolverTwophaseReorder.cpp:614-633`. -/
def sweeps (E : Env) (cells : List Nat) (gravflux s0 : List Rat) : Nat → State → M State
  | 0, _ => .error .thrown
  | k + 1, s => do
    let t ← loop cells.length (step E cells gravflux s0) (s, 0)
    if t.2 > E.tol then sweeps E cells gravflux s0 k t.1 else .ok t.1

/-- `s0_`.  Models: `TransportSolverTwophaseReorder.cpp:606-609`. -/
def initSats (cells : List Nat) (s : State) : M (List Rat) :=
  loop cells.length (fun i s0 => do
    let c ← rd cells i
    let x ← rd s.sat c
    wr s0 i x) (List.replicate cells.length 0)

/-- `solveGravityColumn`; a vector of size `-1` cannot be allocated.  The iterations are counted for a message only.  Models:
`TransportSolverTwophaseReorder.cpp:586-635`. -/
def solveColumn (E : Env) (s : State) (cells : List Nat) : M State :=
  if cells = [] then .error .thrown
  else do
    let gravflux ← columnFlux E cells
    let s0 ← initSats cells s
    sweeps E cells gravflux s0 (max E.maxit 1).toNat s

/-- The mobilities at the beginning.  Models: `TransportSolverTwophaseReorder.cpp:643-655`. -/
def initMobilities (E : Env) (both : List Rat) : M (List Rat) :=
  loop E.g.nc (fun c mob => do
    let w ← rd both (2 * c)
    let o ← rd both (2 * c + 1)
    let mob ← wr mob (2 * c) ((E.fluid.relperm c w o).1 / E.fluid.mu.1)
    wr mob (2 * c + 1) ((E.fluid.relperm c w o).2 / E.fluid.mu.2)) (List.replicate (2 * E.g.nc) 0)

/-- `solveGravity`: `both` are the saturations of the state, `columns` those of the constructor.  Models: `TransportSolverTwophaseReorder.cpp:639-672`. -/
def solveGravity (E : Env) (columns : List (List Nat)) (sat : List Rat) (iters : List Nat) (both : List Rat) : M (List Rat) := do
  let mob ← initMobilities E both
  let sat ← MiscUtil.toWaterSat both sat
  let s ← columns.foldlM (solveColumn E) { sat, mob, iters }
  MiscUtil.toBothSat s.sat both

end Opm.GravitySegregation
