import Verif.Model.Tof
import Verif.Model.TofLimiter
/-!
# Time of flight with multidimensional upwinding

Models the part of `opm/core/tof/TofReorder.cpp` used if `use_multidim_upwind_` is true.  Numbers are exact rationals; a result that is not a number or infinite is the outcome `nonFinite`.
-/

namespace Opm.TofMultidim
open Opm
open _root_.Opm.Geometry (entries)

/-- The members of the solver.  Models: `TofReorder.hpp` (`grid_`, `darcyflux_`, `porevolume_`, `source_`); `nodepos` and `facenodes` are `face_nodepos` and `face_nodes` of the grid. -/
structure Problem where
  g : GridTopo
  dim : Nat
  nodepos : List Nat
  facenodes : List Nat
  flux : List Rat
  pv : List Rat
  src : List Rat

/-- How many vertices two faces have in common.  Models: `TofReorder.cpp:293-296`. -/
def common (ns ms : List Nat) : Nat := (ms.map (fun n => ns.count n)).sum

/-- One face of the upwind cell.  Models: `TofReorder.cpp:287-303`. -/
def adjacentFace (P : Problem) (face : Nat) (ns : List Nat) (adj : List Nat) (f : Nat) : M (List Nat) :=
  if f = face then .ok adj
  else do
    let ms ← entries P.nodepos P.facenodes f
    if common ns ms + 1 = P.dim then .ok (adj ++ [f])
    else do
      let _ ← check (common ns ms = 0)
      .ok adj

/-- `adj_faces_`, with the assertions.  Models: `TofReorder.cpp:281-309`. -/
def adjacent (P : Problem) (face cell : Nat) : M (List Nat) := do
  let ns ← entries P.nodepos P.facenodes face
  let _ ← check (ns.length = 2 ∨ P.dim ≠ 2)
  let fs ← entries P.g.cellFacepos P.g.cellFaces cell
  let adj ← fs.foldlM (adjacentFace P face ns) []
  let _ ← check (adj.length = ns.length)
  .ok adj

/-- The flux out of `cell` through face `f`.  Models: `TofReorder.cpp:212-218`, `:236`, and, with the opposite sign, `:315`. -/
def outflux (P : Problem) (cell f : Nat) : M Rat := do
  let c0 ← rd P.g.faceCells (2 * f)
  let q ← rd P.flux f
  .ok (if (cell : Int) = c0 then q else -q)

/-- `omega`.  If the flux of the face is zero, `omega_star` is infinite for a positive inflow, and `omega` and all that is computed from it is not a number; for a negative inflow `omega_star` is minus
infinity, for no inflow it is not a number, and the comparison is false in both cases.  Models: `TofReorder.cpp:316-322`. -/
def omega (influx flux : Rat) : M Rat :=
  if flux = 0 then (if 0 < influx then .error .nonFinite else .ok 0)
  else .ok (if 0 < influx / flux then influx / flux / (1 + influx / flux) else 0)

/-- One adjacent face.  Models: `TofReorder.cpp:313-325`. -/
def addAdjacent (P : Problem) (cell : Nat) (faceTof : List Rat) (q : Rat) (s : Rat × Rat) (f : Nat) : M (Rat × Rat) := do
  let o ← outflux P cell f
  let w ← omega (-o) q
  let t ← rd faceTof f
  .ok (s.1 + w * t, s.2 + (1 - w))

/-- `multidimUpwindTerms`.  Models: `TofReorder.cpp:265-328`. -/
def terms (P : Problem) (faceTof : List Rat) (face cell : Nat) : M (Rat × Rat) := do
  let adj ← adjacent P face cell
  let q ← rd P.flux face
  let s ← adj.foldlM (addAdjacent P cell faceTof (max q (-q))) (0, 0)
  let a ← fdiv s.1 adj.length
  let b ← fdiv s.2 adj.length
  .ok (a, b)

/-- `upwind_term`, `downwind_term_cell_factor` and `downwind_term_face`.  Models: `TofReorder.cpp:207-209`. -/
structure Acc where
  up : Rat
  factor : Rat
  face : Rat

/-- One face of the cell.  Models: `TofReorder.cpp:210-228`. -/
def addFace (P : Problem) (cell : Nat) (faceTof : List Rat) (a : Acc) (f : Nat) : M Acc := do
  let q ← outflux P cell f
  if q < 0 then do
    let t ← rd faceTof f
    .ok { a with up := a.up + q * t }
  else do
    let x ← terms P faceTof f cell
    .ok { a with face := a.face + x.1 * q, factor := a.factor + x.2 * q }

/-- The value of a downwind face.  Models: `TofReorder.cpp:234-242`. -/
def setFace (P : Problem) (cell : Nat) (tof : List Rat) (faceTof : List Rat) (f : Nat) : M (List Rat) := do
  let q ← outflux P cell f
  if 0 < q then do
    let x ← terms P faceTof f cell
    let t ← rd tof cell
    wr faceTof f (x.1 + x.2 * t)
  else .ok faceTof

/-- `solveSingleCellMultidimUpwind`; the values of cells and faces.  Models: `TofReorder.cpp:199-243`. -/
def solveSingleCell (P : Problem) (cell : Nat) (s : List Rat × List Rat) : M (List Rat × List Rat) := do
  let q ← rd P.src cell
  let fs ← entries P.g.cellFacepos P.g.cellFaces cell
  let a ← fs.foldlM (addFace P cell s.2) { up := 0, factor := max (-q) 0, face := 0 }
  let p ← rd P.pv cell
  let t ← fdiv (p - a.up - a.face) a.factor
  let tof ← wr s.1 cell t
  let faceTof ← fs.foldlM (setFace P cell tof) s.2
  .ok (tof, faceTof)

/-- A call made by `reorderAndTransport`.  Models: `ReorderSolverInterface.cpp:57-62`, `TofReorder.cpp:248-254` and `:143-146`. -/
def solveCall (P : Problem) (s : List Rat × List Rat) : Reorder.Call → M (List Rat × List Rat)
  | .single c => solveSingleCell P c s
  | .multi cs => cs.foldlM (fun s c => solveSingleCell P c s) s

/-- All cells.  Models: `ReorderSolverInterface.cpp:30-64`. -/
def transport (fuel : Nat) (P : Problem) : M (List Rat × List Rat) := do
  let calls ← Reorder.reorderAndTransport fuel P.g P.flux [] []
  calls.foldlM (solveCall P) (List.replicate P.g.nc 0, List.replicate P.g.nf 0)

/-- `solveTof`.  Models: `TofReorder.cpp:58-80`. -/
def solveTof (fuel : Nat) (P : Problem) : M (List Rat) := do
  Tof.checkSources P.g.nc P.src
  let s ← transport fuel P
  .ok s.1

end Opm.TofMultidim
