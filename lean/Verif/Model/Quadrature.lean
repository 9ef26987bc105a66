import Verif.Model.Geometry
/-!
# Quadrature on cells and faces

Models `opm/core/grid/CellQuadrature.hpp` and `opm/core/grid/FaceQuadrature.hpp`.  Doubles are rationals and the square root is a parameter; the coordinates of a point are
a list.  Indices are natural numbers; positions are assumed not to decrease where their difference is taken.  The integrand is given by the caller, and `cellSum` and
`faceSum` are the sums over all quadrature points that the documentation of the classes describes.
-/

namespace Opm.Quadrature
open Opm Opm.Geometry

/-- The members of `UnstructuredGrid` that are used. -/
structure Grid where
  dim : Nat
  coords : List Rat
  nodepos : List Nat
  facenodes : List Nat
  facepos : List Nat
  cellfaces : List Nat
  faceCentroids : List Rat
  faceAreas : List Rat
  cellCentroids : List Rat
  cellVolumes : List Rat

/-- Coordinates of a point in space. -/
def coords3 (v : V3) : List Rat := [v.x, v.y, v.z]

/-- Coordinates of a point in the plane. -/
def coords2 (v : Rat × Rat) : List Rat := [v.1, v.2]

/-- The point `k` of an array, in any dimension. -/
def readPoint (a : List Rat) (dim k : Nat) : M (List Rat) := if dim * k + dim ≤ a.length then .ok ((a.drop (dim * k)).take dim) else .error .ub

/-- The constructors.  Models: `CellQuadrature.hpp:122-133`, `FaceQuadrature.hpp:84-95`. -/
def construct (G : Grid) (degree : Nat) : M Unit := if 3 < G.dim then .error .thrown else if 2 < degree then .error .thrown else .ok ()

/-- `nodepos[face]` and the number of nodes of a face. -/
def nodeRange (G : Grid) (face : Nat) : M (Nat × Nat) := do
  let a ← rd G.nodepos face
  let b ← rd G.nodepos (face + 1)
  .ok (a, b - a)

/-- `CellQuadrature::numQuadPts`.  Models: `CellQuadrature.hpp:135-151`. -/
def cellNum (G : Grid) (cell degree : Nat) : M Nat :=
  if degree < 2 ∨ G.dim = 1 then .ok 1
  else if G.dim = 2 then do
    let b ← rd G.facepos (cell + 1)
    let a ← rd G.facepos cell
    .ok (3 * (b - a))
  else do
    check (decide (G.dim = 3))
    let a ← rd G.facepos cell
    let b ← rd G.facepos (cell + 1)
    let n ← forRange a b (fun hf n => do
      let face ← rd G.cellfaces hf
      let r ← nodeRange G face
      .ok (n + r.2)) 0
    .ok (4 * n)

/-- The search for the face and the nodes of a tetrahedron.  Models: `CellQuadrature.hpp:188-200`, `:233-245`. -/
def findTet (G : Grid) : Nat → Nat → Nat → M (Nat × Nat × Nat)
  | 0, _, _ => .error .thrown
  | n + 1, hf, t => do
    let face ← rd G.cellfaces hf
    let r ← nodeRange G face
    if r.2 ≤ t then findTet G n (hf + 1) (t - r.2)
    else do
      let n0 ← rd G.facenodes (r.1 + t)
      let n1 ← rd G.facenodes (r.1 + (t + 1) % r.2)
      .ok (face, n0, n1)

/-- The tetrahedron of an index: cell centroid, face centroid and two nodes.  Models: `CellQuadrature.hpp:184-201`, `:230-247`. -/
def cellTet (G : Grid) (cell index : Nat) : M (V3 × V3 × V3 × V3) := do
  let a ← rd G.facepos cell
  let b ← rd G.facepos (cell + 1)
  let r ← findTet G (b - a) a (index / 4)
  let cc ← readV G.cellCentroids cell
  let fc ← readV G.faceCentroids r.1
  let p0 ← readV G.coords r.2.1
  let p1 ← readV G.coords r.2.2
  .ok (cc, fc, p0, p1)

/-- The constant of the rule.  Models: `CellQuadrature.hpp:202`. -/
def tetConst : Rat := 138196601125010515179541316563436 / 10 ^ 33

/-- `CellQuadrature::quadPtCoord`.  Models: `CellQuadrature.hpp:153-212`. -/
def cellCoord (G : Grid) (cell degree index : Nat) : M (List Rat) :=
  if degree < 2 then readPoint G.cellCentroids G.dim cell
  else if G.dim = 2 then do
    let a ← rd G.facepos cell
    let face ← rd G.cellfaces (a + index / 3)
    if index % 3 = 0 then do
      let fc ← readP G.faceCentroids face
      .ok (coords2 fc)
    else do
      let k ← rd G.nodepos face
      let node ← rd G.facenodes (k + (index % 3 - 1))
      let nc ← readP G.coords node
      let cc ← readP G.cellCentroids cell
      .ok [1 / 2 * (nc.1 + cc.1), 1 / 2 * (nc.2 + cc.2)]
  else do
    check (decide (G.dim = 3))
    let t ← cellTet G cell index
    let w := fun k => if index % 4 = k then 1 - 3 * tetConst else tetConst
    .ok (coords3 (V3.smul (w 0) t.1 + V3.smul (w 1) t.2.1 + V3.smul (w 2) t.2.2.1 + V3.smul (w 3) t.2.2.2))

/-- `determinantOf`.  Models: `CellQuadrature.hpp:35-43`. -/
def determinantOf (a0 a1 a2 : V3) : Rat := a0.x * (a1.y * a2.z - a2.y * a1.z) - a0.y * (a1.x * a2.z - a2.x * a1.z) + a0.z * (a1.x * a2.y - a2.x * a1.y)

/-- `tetVolume`.  Models: `CellQuadrature.hpp:47-56`. -/
def tetVolume (p0 p1 p2 p3 : V3) : Rat := |determinantOf (p1 - p0) (p2 - p0) (p3 - p0) / 6|

/-- `triangleArea2d`.  Models: `CellQuadrature.hpp:60-68`. -/
def triangleArea2d (p0 p1 p2 : Rat × Rat) : Rat := 1 / 2 * |(p1.1 - p0.1) * (p2.2 - p0.2) - (p1.2 - p0.2) * (p2.1 - p0.1)|

/-- `CellQuadrature::quadPtWeight`.  Models: `CellQuadrature.hpp:214-251`. -/
def cellWeight (G : Grid) (cell degree index : Nat) : M Rat :=
  if degree < 2 then rd G.cellVolumes cell
  else if G.dim = 2 then do
    let a ← rd G.facepos cell
    let face ← rd G.cellfaces (a + index / 3)
    let k ← rd G.nodepos face
    let n0 ← rd G.facenodes k
    let n1 ← rd G.facenodes (k + 1)
    let nc0 ← readP G.coords n0
    let nc1 ← readP G.coords n1
    let cc ← readP G.cellCentroids cell
    .ok (triangleArea2d nc0 nc1 cc / 3)
  else do
    check (decide (G.dim = 3))
    let t ← cellTet G cell index
    .ok (1 / 4 * tetVolume t.1 t.2.1 t.2.2.1 t.2.2.2)

/-- The sum of weights times values over the quadrature points. -/
def quadSum (num : M Nat) (coord : Nat → M (List Rat)) (weight : Nat → M Rat) (g : List Rat → Rat) : M Rat := do
  let n ← num
  loop n (fun i s => do
    let w ← weight i
    let x ← coord i
    .ok (s + w * g x)) 0

/-- The quadrature of a function on a cell.  Models the documentation: `CellQuadrature.hpp:72-75`. -/
def cellSum (G : Grid) (cell degree : Nat) (g : List Rat → Rat) : M Rat := do
  construct G degree
  quadSum (cellNum G cell degree) (cellCoord G cell degree) (cellWeight G cell degree) g

/-! ### Faces -/

/-- `FaceQuadrature::numQuadPts`.  Models: `FaceQuadrature.hpp:97-108`. -/
def faceNum (G : Grid) (face degree : Nat) : M Nat :=
  if degree < 2 ∨ G.dim < 2 then .ok 1
  else if G.dim = 2 then .ok 3
  else do
    let r ← nodeRange G face
    .ok (2 * r.2)

/-- `FaceQuadrature::quadPtCoord`.  Models: `FaceQuadrature.hpp:110-144`. -/
def faceCoord (G : Grid) (face degree index : Nat) : M (List Rat) :=
  if degree < 2 ∨ G.dim < 2 then readPoint G.faceCentroids G.dim face
  else do
    let r ← nodeRange G face
    if G.dim = 2 then do
      check (decide (r.2 = 2))
      if index = 1 then do
        let p ← readP G.faceCentroids face
        .ok (coords2 p)
      else if index = 0 ∨ index = 2 then do
        let n ← rd G.facenodes (r.1 + index / 2)
        let p ← readP G.coords n
        .ok (coords2 p)
      else .error .ub
    else do
      check (decide (G.dim = 3))
      if index < r.2 then do
        let n0 ← rd G.facenodes (r.1 + index)
        let n1 ← rd G.facenodes (r.1 + (index + 1) % r.2)
        let p0 ← readV G.coords n0
        let p1 ← readV G.coords n1
        .ok (coords3 (V3.smul (1 / 2) (p0 + p1)))
      else do
        let n ← rd G.facenodes (r.1 + (index - r.2))
        let p ← readV G.coords n
        let fc ← readV G.faceCentroids face
        .ok (coords3 (V3.smul (1 / 2) (p + fc)))

/-- `triangleArea3d`.  Models: `FaceQuadrature.hpp:43-53`. -/
def triangleArea3d (sqrt : Rat → Rat) (p0 p1 p2 : V3) : Rat := 1 / 2 * norm sqrt (V3.cross (p1 - p0) (p2 - p0))

/-- `FaceQuadrature::quadPtWeight`.  Models: `FaceQuadrature.hpp:146-180`. -/
def faceWeight (sqrt : Rat → Rat) (G : Grid) (face degree index : Nat) : M Rat :=
  if degree < 2 then rd G.faceAreas face
  else if G.dim = 2 then do
    let a ← rd G.faceAreas face
    let w ← rd [1 / 6, 4 / 6, 1 / 6] index
    .ok (a * w)
  else do
    check (decide (G.dim = 3))
    let r ← nodeRange G face
    let fc ← readV G.faceCentroids face
    if index < r.2 then do
      let n0 ← rd G.facenodes (r.1 + index)
      let n1 ← rd G.facenodes (r.1 + (index + 1) % r.2)
      let p0 ← readV G.coords n0
      let p1 ← readV G.coords n1
      .ok (triangleArea3d sqrt p1 p0 fc / 3)
    else do
      let n0 ← rd G.facenodes (r.1 + (index - 1) % r.2)
      let n1 ← rd G.facenodes (r.1 + (index - r.2))
      let n2 ← rd G.facenodes (r.1 + (index + 1) % r.2)
      let p0 ← readV G.coords n0
      let p1 ← readV G.coords n1
      let p2 ← readV G.coords n2
      .ok ((triangleArea3d sqrt p1 p0 fc + triangleArea3d sqrt p2 p1 fc) / 3)

/-- The quadrature of a function on a face.  Models the documentation: `FaceQuadrature.hpp:57-60`. -/
def faceSum (sqrt : Rat → Rat) (G : Grid) (face degree : Nat) (g : List Rat → Rat) : M Rat := do
  construct G degree
  quadSum (faceNum G face degree) (faceCoord G face degree) (faceWeight sqrt G face degree) g

end Opm.Quadrature
