import Verif.Core.RowLoop
import Verif.Model.Reorder
/-!
# Time of flight and tracers by reordering

Models `opm/core/tof/TofReorder.cpp` with single-point upwinding (`use_multidim_upwind_` false).  Numbers are exact rationals; a division by zero is the outcome
`nonFinite`.
-/

namespace Opm.Tof
open Opm

/-- The flux out of `cell` through face `f` and the cell on the other side.  Models: `TofReorder.cpp:155-163`. -/
def cellFlux (g : GridTopo) (flux : List Rat) (cell f : Nat) : M (Rat × Int) := do
  let c0 ← rd g.faceCells (2 * f)
  let q ← rd flux f
  if (cell : Int) = c0 then do
    let o ← rd g.faceCells (2 * f + 1)
    .ok (q, o)
  else .ok (-q, c0)

/-- `tracer_[num_tracers_*cell + tr] += flux*tracer_[num_tracers_*other + tr]` for all tracers.  Models: `TofReorder.cpp:171-173`. -/
def tracerInflow (nt cell : Nat) (other : Int) (q : Rat) (tracer : List Rat) : M (List Rat) :=
  loop nt (fun tr tracer => do
    let v ← rdI tracer (nt * other + tr)
    addAt tracer (nt * cell + tr) (q * v)) tracer

/-- `upwind_term`, `downwind_flux` and the tracers. -/
structure Acc where
  up : Rat
  down : Rat
  tracer : List Rat
  deriving DecidableEq, Repr

/-- One face of the cell.  Models: `TofReorder.cpp:150-179`. -/
def tofFace (g : GridTopo) (flux tof : List Rat) (nt cell i : Nat) (a : Acc) : M Acc := do
  let f ← rd g.cellFaces i
  let x ← cellFlux g flux cell f
  if x.1 < 0 then
    if x.2 ≠ -1 then do
      let t ← rdI tof x.2
      let tracer ← tracerInflow nt cell x.2 x.1 a.tracer
      .ok { a with up := a.up + x.1 * t, tracer }
    else .ok a
  else .ok { a with down := a.down + x.1 }

/-- `tracer_[num_tracers_*cell + tr] *= -1.0/downwind_flux` for all tracers.  Models: `TofReorder.cpp:187-189`. -/
def tracerScale (nt cell : Nat) (down : Rat) (tracer : List Rat) : M (List Rat) :=
  loop nt (fun tr tracer => do
    let w ← fdiv (-1) down
    let x ← rd tracer (nt * cell + tr)
    wr tracer (nt * cell + tr) (x * w)) tracer

/-- `TofReorder::solveSingleCell`: the times of flight and the tracers.  Models: `TofReorder.cpp:135-191`. -/
def solveSingleCell (g : GridTopo) (flux pv src : List Rat) (nt cell : Nat) (s : List Rat × List Rat) : M (List Rat × List Rat) := do
  let q ← rd src cell
  let a ← Reorder.cellLoop g (tofFace g flux s.1 nt) cell { up := 0, down := max (-q) 0, tracer := s.2 }
  let p ← rd pv cell
  let t ← fdiv (p - a.up) a.down
  let tof ← wr s.1 cell t
  if q ≤ 0 then do
    let tracer ← tracerScale nt cell a.down a.tracer
    .ok (tof, tracer)
  else .ok (tof, a.tracer)

/-- `solveSingleCell`, or `solveMultiCell`, which calls `solveSingleCell` for one cell after the other.  Models: `ReorderSolverInterface.cpp:57-62`,
`TofReorder.cpp:241-247`. -/
def solveCall (g : GridTopo) (flux pv src : List Rat) (nt : Nat) (s : List Rat × List Rat) : Reorder.Call → M (List Rat × List Rat)
  | .single c => solveSingleCell g flux pv src nt c s
  | .multi cs => cs.foldlM (fun s c => solveSingleCell g flux pv src nt c s) s

/-- The sanity check of debug builds; the largest element of an empty array is read out of bounds.  Models: `TofReorder.cpp:64-70`, `:105-111`. -/
def checkSources (nc : Nat) (src : List Rat) : M Unit :=
  match src.take nc with
  | [] => .error .ub
  | q :: qs => if max (q :: qs).sum (-(q :: qs).sum) > (qs.foldl max q) * (1 / 100) then .error .thrown else .ok ()

/-- `reorderAndTransport`.  Models: `ReorderSolverInterface.cpp:30-64`. -/
def transport (fuel : Nat) (g : GridTopo) (flux pv src : List Rat) (nt : Nat) (s : List Rat × List Rat) : M (List Rat × List Rat) := do
  let calls ← Reorder.reorderAndTransport fuel g flux [] []
  calls.foldlM (solveCall g flux pv src nt) s

/-- `TofReorder::solveTof`.  Models: `TofReorder.cpp:58-80`. -/
def solveTof (fuel : Nat) (g : GridTopo) (flux pv src : List Rat) : M (List Rat) := do
  checkSources g.nc src
  let s ← transport fuel g flux pv src 0 (List.replicate g.nc 0, [])
  .ok s.1

/-- The cells with a positive source.  Models: `TofReorder.cpp:115-121`. -/
def tracerHeads (nc : Nat) (src : List Rat) : M (List Nat) :=
  loop nc (fun c heads => do
    let q ← rd src c
    if 0 < q then .ok (heads ++ [c]) else .ok heads) []

/-- One in the cell where a tracer starts, zero elsewhere.  Models: `TofReorder.cpp:122-127`. -/
def initTracers (nc : Nat) (heads : List Nat) : M (List Rat) :=
  loop heads.length (fun tr tracer => do
    let c ← rd heads tr
    wr tracer (c * heads.length + tr) 1) (List.replicate (nc * heads.length) 0)

/-- `TofReorder::solveTofTracer`; the address of the first element of an empty vector is undefined.  Models: `TofReorder.cpp:97-132`. -/
def solveTofTracer (fuel : Nat) (g : GridTopo) (flux pv src : List Rat) : M (List Rat × List Rat) := do
  checkSources g.nc src
  let heads ← tracerHeads g.nc src
  let tracer ← initTracers g.nc heads
  if tracer = [] then .error .ub
  else transport fuel g flux pv src heads.length (List.replicate g.nc 0, tracer)

end Opm.Tof
