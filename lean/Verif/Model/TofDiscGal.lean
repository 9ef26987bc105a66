import Verif.Model.TofLimiter
import Verif.Model.Quadrature
import Verif.Model.CfsTpfa
import Verif.Model.Reorder
/-!
# Model of `solveSingleCell` and `solveMultiCell` of `TofDiscGalReorder.cpp` (`opm/core/tof`)

Numbers are rational.  The velocity interpolation is a function of the cell and the point (its two classes are modelled in `Model/Wachspress.lean`), `dgesv_` is the pair `dgetrf_`, `dgetrs_` of the model of the
compressible solver, and the square root in the areas of triangles is a parameter.  Points and weights of a quadrature are computed before the loop over them.  The buffers `basis_`, `basis_nb_`, `grad_basis_`
are filled before they are read: they start with zeros here.  Messages are not modelled.
-/

namespace Opm.TofDiscGal
open Opm
open _root_.Opm.CfsTpfa (Lapack)
open _root_.Opm.DGBasis (Basis eval evalGrad innerProduct numBasis)
open _root_.Opm.TofLimiter (Solver outflow Method applyLimiter)
open _root_.Opm.Geometry (entries)

/-- The members of the solver that are used; `limiter` is the method if the limiter is used during computations. -/
structure Problem where
  nc : Nat
  nf : Nat
  G : Quadrature.Grid
  faceCells : List Int
  flux : List Rat
  porevolume : List Rat
  source : List Rat
  basis : Basis
  threshold : Rat
  limiter : Option Method
  sqrt : Rat → Rat
  vel : Nat → List Rat → M (List Rat)
  lu : Lapack

/-- What the limiter uses. -/
def Problem.solver (P : Problem) : Solver :=
  ⟨P.nc, P.G.facepos, P.G.cellfaces, P.faceCells, P.G.nodepos, P.G.facenodes, P.G.coords, P.flux, P.basis, P.threshold⟩

/-- The points and weights of a quadrature. -/
def points (num : M Nat) (coord : Nat → M (List Rat)) (weight : Nat → M Rat) : M (List (List Rat × Rat)) := do
  let n ← num
  loop n (fun i l => do
    let x ← coord i
    let w ← weight i
    .ok (l ++ [(x, w)])) []

/-- `CellQuadrature quad(grid_, cell, degree)`. -/
def cellPts (P : Problem) (cell degree : Nat) : M (List (List Rat × Rat)) := do
  Quadrature.construct P.G degree
  points (Quadrature.cellNum P.G cell degree) (Quadrature.cellCoord P.G cell degree) (Quadrature.cellWeight P.G cell degree)

/-- `FaceQuadrature quad(grid_, face, degree)`. -/
def facePts (P : Problem) (face degree : Nat) : M (List (List Rat × Rat)) := do
  Quadrature.construct P.G degree
  points (Quadrature.faceNum P.G face degree) (Quadrature.faceCoord P.G face degree) (Quadrature.faceWeight P.sqrt P.G face degree)

/-- One point of the loop for the pore volume.  Models: `TofDiscGalReorder.cpp:169-174`. -/
def rhsPoint (P : Problem) (nb cell : Nat) (r : List Rat) (p : List Rat × Rat) : M (List Rat) := do
  let bs ← eval P.basis cell p.1 (List.replicate nb 0)
  let pv ← rd P.porevolume cell
  let vol ← rd P.G.cellVolumes cell
  loop nb (fun j r => do
    let b ← rd bs j
    let q ← fdiv (p.2 * b * pv) vol
    addAt r j q) r

/-- The pore volume.  Models: `TofDiscGalReorder.cpp:163-176`. -/
def rhsCell (P : Problem) (nb cell : Nat) (rhs : List Rat) : M (List Rat) := do
  let ps ← cellPts P cell P.basis.degree.toNat
  ps.foldlM (rhsPoint P nb cell) rhs

/-- One point of an upstream face.  Models: `TofDiscGalReorder.cpp:209-217`. -/
def rhsFacePoint (P : Problem) (nb cell other : Nat) (coeff : List Rat) (vn : Rat) (r : List Rat) (p : List Rat × Rat) : M (List Rat) := do
  let bs ← eval P.basis cell p.1 (List.replicate nb 0)
  let us ← eval P.basis other p.1 (List.replicate nb 0)
  let u ← innerProduct us (coeff.drop (nb * other))
  loop nb (fun j r => do
    let b ← rd bs j
    addAt r j (-(p.2 * u * vn * b))) r

/-- An upstream face.  Models: `TofDiscGalReorder.cpp:178-219`. -/
def rhsFace (P : Problem) (nb cell : Nat) (coeff : List Rat) (rhs : List Rat) (face : Nat) : M (List Rat) := do
  let q ← outflow P.solver cell face
  if 0 ≤ q.1 then .ok rhs
  else if q.2 < 0 then .ok rhs
  else do
    let area ← rd P.G.faceAreas face
    let vn ← fdiv q.1 area
    let ps ← facePts P face (2 * P.basis.degree.toNat)
    ps.foldlM (rhsFacePoint P nb cell q.2.toNat coeff vn) rhs

/-- One point of the cell.  Models: `TofDiscGalReorder.cpp:237-248`. -/
def jacPoint (P : Problem) (nb cell : Nat) (a : List Rat) (p : List Rat × Rat) : M (List Rat) := do
  let bs ← eval P.basis cell p.1 (List.replicate nb 0)
  let gs ← evalGrad P.basis cell p.1 (List.replicate (nb * P.basis.dim) 0)
  let v ← P.vel cell p.1
  loop nb (fun j a => loop nb (fun i a => loop P.basis.dim (fun d a => do
    let b ← rd bs j
    let g ← rd gs (P.basis.dim * i + d)
    let y ← rd v d
    addAt a (j * nb + i) (-(p.2 * b * g * y))) a) a) a

/-- The transport inside the cell.  Models: `TofDiscGalReorder.cpp:221-250`. -/
def jacCell (P : Problem) (nb cell : Nat) (jac : List Rat) : M (List Rat) := do
  let ps ← cellPts P cell (2 * P.basis.degree.toNat)
  ps.foldlM (jacPoint P nb cell) jac

/-- One point of a downstream face, or of the cell for a sink.  Models: `TofDiscGalReorder.cpp:271-278`, `TofDiscGalReorder.cpp:295-302`. -/
def massPoint (P : Problem) (nb cell : Nat) (z : Rat) (a : List Rat) (p : List Rat × Rat) : M (List Rat) := do
  let bs ← eval P.basis cell p.1 (List.replicate nb 0)
  loop nb (fun j a => loop nb (fun i a => do
    let bi ← rd bs i
    let bj ← rd bs j
    addAt a (j * nb + i) (p.2 * bi * z * bj)) a) a

/-- A downstream face.  Models: `TofDiscGalReorder.cpp:252-280`. -/
def jacFace (P : Problem) (nb cell : Nat) (jac : List Rat) (face : Nat) : M (List Rat) := do
  let q ← outflow P.solver cell face
  if q.1 ≤ 0 then .ok jac
  else do
    let area ← rd P.G.faceAreas face
    let vn ← fdiv q.1 area
    let ps ← facePts P face (2 * P.basis.degree.toNat)
    ps.foldlM (massPoint P nb cell vn) jac

/-- A sink.  Models: `TofDiscGalReorder.cpp:287-304`. -/
def jacSink (P : Problem) (nb cell : Nat) (jac : List Rat) : M (List Rat) := do
  let src ← rd P.source cell
  if src < 0 then do
    let vol ← rd P.G.cellVolumes cell
    let z ← fdiv (-src) vol
    let ps ← cellPts P cell (2 * P.basis.degree.toNat)
    ps.foldlM (massPoint P nb cell z) jac
  else .ok jac

/-- The right-hand side. -/
def assembleRhs (P : Problem) (nb cell : Nat) (fs : List Nat) (coeff : List Rat) : M (List Rat) := do
  let r ← rhsCell P nb cell (List.replicate nb 0)
  fs.foldlM (rhsFace P nb cell coeff) r

/-- The matrix. -/
def assembleJac (P : Problem) (nb cell : Nat) (fs : List Nat) : M (List Rat) := do
  let a ← jacCell P nb cell (List.replicate (nb * nb) 0)
  let a ← fs.foldlM (jacFace P nb cell) a
  jacSink P nb cell a

/-- `dgesv_`, and the copy of the solution to the coefficients of the cell.  Models: `TofDiscGalReorder.cpp:306-334`. -/
def solveLocal (P : Problem) (nb cell : Nat) (jac rhs coeff : List Rat) : M (List Rat) :=
  match P.lu nb (fun k => jac.getD k 0) with
  | none => .error .thrown
  | some s => loop nb (fun i c => wr c (nb * cell + i) (s (fun k => rhs.getD k 0) i)) coeff

/-- The limiter, if it is used during computations.  Models: `TofDiscGalReorder.cpp:337`, `TofDiscGalReorder.cpp:361`. -/
def finish (P : Problem) (cell : Nat) (coeff : List Rat) : M (List Rat) :=
  match P.limiter with
  | none => .ok coeff
  | some m => if 0 < P.basis.degree then applyLimiter P.solver m cell coeff coeff else .ok coeff

/-- `solveSingleCell`; the array of all coefficients is returned.  Models: `TofDiscGalReorder.cpp:145-363`. -/
def solveSingleCell (P : Problem) (cell : Nat) (coeff : List Rat) : M (List Rat) := do
  let nb ← numBasis P.basis
  let fs ← entries P.G.facepos P.G.cellfaces cell
  let rhs ← assembleRhs P nb cell fs coeff
  let jac ← assembleJac P nb cell fs
  let c ← solveLocal P nb cell jac rhs coeff
  finish P cell c

/-- `solveMultiCell`: the cells one after the other.  Models: `TofDiscGalReorder.cpp:368-374`. -/
def solveMultiCell (P : Problem) (cells : List Nat) (coeff : List Rat) : M (List Rat) := cells.foldlM (fun c cell => solveSingleCell P cell c) coeff

/-- The mesh as the reordering sees it. -/
def Problem.topo (P : Problem) : GridTopo := ⟨P.nc, P.nf, P.faceCells, P.G.facepos, P.G.cellfaces⟩

/-- A call made by `reorderAndTransport`. -/
def solveCall (P : Problem) (coeff : List Rat) : Reorder.Call → M (List Rat)
  | .single c => solveSingleCell P c coeff
  | .multi cs => solveMultiCell P cs coeff

/-- When the limiter is applied after the computations. -/
inductive Post where
  | no
  | inOrder (m : Method)
  | simultaneous (m : Method)

/-- `solveTof`; the returned coefficients.  The check of the sources only prints a message.  `sequence_` is the cells in the order of the calls.  Models: `TofDiscGalReorder.cpp:99-140`. -/
def solveTof (fuel : Nat) (P : Problem) (post : Post) : M (List Rat) := do
  let nb ← numBasis P.basis
  let calls ← Reorder.reorderAndTransport fuel P.topo P.flux [] []
  let c ← calls.foldlM (solveCall P) (List.replicate (nb * P.nc) 0)
  match post with
  | .no => .ok c
  | .inOrder m => TofLimiter.postProcess P.solver m (calls.flatMap (fun x => match x with
      | .single c => [c]
      | .multi cs => cs)) c
  | .simultaneous m => TofLimiter.simultaneous P.solver m c

end Opm.TofDiscGal
