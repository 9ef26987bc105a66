import Verif.Model.CfsTpfa
import Verif.Model.Geometry
import Mathlib.Data.List.Sort
import Mathlib.Data.List.Dedup
/-!
# Model of `WachspressCoord.cpp` and `VelocityInterpolation.cpp` (`opm/core/utility`)

Simplifications.  Numbers are rational.  The two `SparseTable`s are only appended to and read by row; they are lists of rows here (this use is covered by the theorems about `SparseTable`).  Elements of
a `std::multimap` with the same key are in the order of insertion.  `dgesv_` is the pair `dgetrf_`, `dgetrs_` of the model of the compressible solver.  Messages are not modelled.
-/

namespace Opm.Wachspress
open Opm
open _root_.Opm.CfsTpfa (Block block Lapack)
open _root_.Opm.Geometry (entries)

/-- The members of `UnstructuredGrid` that are used. -/
structure Grid where
  dim : Nat
  nc : Nat
  faceCells : List Int
  facepos : List Nat
  cellfaces : List Nat
  nodepos : List Nat
  facenodes : List Nat
  normals : List Rat
  centroids : List Rat
  cellCentroids : List Rat
  volumes : List Rat

/-- `CornerInfo`.  Models: `WachspressCoord.hpp:59-64`. -/
structure Corner where
  id : Nat
  vertex : Nat
  volume : Rat
  deriving DecidableEq, Repr

/-- The members `corner_info_`, `adj_faces_`, `nonadj_faces_`, and `corner_id_count`.  Models: `WachspressCoord.hpp:76-78`, `WachspressCoord.cpp:106`. -/
structure Static where
  count : Nat
  corners : List (List Corner)
  adj : List Nat
  nonadj : List (List Nat)
  deriving DecidableEq, Repr

/-- `std::set_difference` of two sorted ranges. -/
def setDifference : List Nat → List Nat → List Nat
  | [], _ => []
  | a :: as, [] => a :: as
  | a :: as, b :: bs => if a < b then a :: setDifference as (b :: bs) else if b < a then setDifference (a :: as) bs else setDifference as bs
termination_by a b => a.length + b.length

/-- `std::sort`. -/
def sorted (l : List Nat) : List Nat := l.insertionSort (· ≤ ·)

/-- The elements of `vertex_adj_faces`, in the order of insertion.  Models: `WachspressCoord.cpp:111-121`. -/
def incidences (g : Grid) (fs : List Nat) : M (List (Nat × Nat)) := fs.foldlM (fun l f => do
  let ns ← entries g.nodepos g.facenodes f
  .ok (l ++ ns.map (fun v => (v, f)))) []

/-- `cell_vertices`, in the order of iteration. -/
def vertices (ps : List (Nat × Nat)) : List Nat := (sorted (ps.map (·.1))).dedup

/-- `vertex_adj_faces.equal_range(v)`: the faces found. -/
def adjacent (ps : List (Nat × Nat)) (v : Nat) : List Nat := (ps.filter (fun p => p.1 = v)).map (·.2)

/-- `determinantOf`, two rows.  Models: `WachspressCoord.cpp:36-41`. -/
def det2 (a b : Block) : Rat := a 0 * b 1 - a 1 * b 0

/-- `determinantOf`, three rows.  Models: `WachspressCoord.cpp:45-53`. -/
def det3 (a b c : Block) : Rat := a 0 * (b 1 * c 2 - c 1 * b 2) - a 1 * (b 0 * c 2 - c 0 * b 2) + a 2 * (b 0 * c 1 - c 0 * b 1)

/-- The normal of a face. -/
def normal (g : Grid) (f : Nat) : M Block := block g.normals (g.dim * f) g.dim

/-- `cornerVolume(n, dim)` for the normals of the faces `adj`.  Models: `WachspressCoord.cpp:57-62`. -/
def cornerVolume (g : Grid) (adj : List Nat) : M Rat :=
  if g.dim = 2 then do
    let f0 ← rd adj 0
    let f1 ← rd adj 1
    let n0 ← normal g f0
    let n1 ← normal g f1
    .ok |det2 n0 n1|
  else do
    check (decide (g.dim = 3))
    let f0 ← rd adj 0
    let f1 ← rd adj 1
    let f2 ← rd adj 2
    let n0 ← normal g f0
    let n1 ← normal g f1
    let n2 ← normal g f2
    .ok |det3 n0 n1 n2|

/-- `vert_nonadj_faces`; `fs` is sorted.  A negative size does not fit, and an output longer than the vector is undefined.  Models: `WachspressCoord.cpp:151-155`. -/
def nonadjacent (fs adj : List Nat) : M (List Nat) :=
  if fs.length < adj.length then .error .thrown
  else
    let d := setDifference fs (sorted adj)
    if fs.length - adj.length < d.length then .error .ub else .ok (d ++ List.replicate (fs.length - adj.length - d.length) 0)

/-- One vertex of a cell; the second component is `cell_corner_info`.  Models: `WachspressCoord.cpp:126-156`. -/
def corner (g : Grid) (ps : List (Nat × Nat)) (fs : List Nat) (t : Static × List Corner) (v : Nat) : M (Static × List Corner) :=
  if g.dim < (adjacent ps v).length then .error .thrown
  else do
    check (decide ((adjacent ps v).length = g.dim))
    let vol ← cornerVolume g (adjacent ps v)
    let non ← nonadjacent fs (adjacent ps v)
    .ok ({ t.1 with count := t.1.count + 1, adj := t.1.adj ++ adjacent ps v, nonadj := t.1.nonadj ++ [non] }, t.2 ++ [⟨t.1.count, v, vol⟩])

/-- One cell.  Models: `WachspressCoord.cpp:108-158`. -/
def cell (g : Grid) (c : Nat) (S : Static) : M Static := do
  let fs ← entries g.facepos g.cellfaces c
  let ps ← incidences g fs
  let t ← (vertices ps).foldlM (corner g ps (sorted fs)) (S, [])
  .ok { t.1 with corners := t.1.corners ++ [t.2] }

/-- The constructor.  Models: `WachspressCoord.cpp:95-160`. -/
def construct (g : Grid) : M Static :=
  if 3 < g.dim then .error .thrown
  else do
    let S ← loop g.nc (cell g) { count := 0, corners := [], adj := [], nonadj := [] }
    check (decide (S.count = S.corners.flatten.length))
    .ok S

/-- `numCorners(cell)`.  Models: `WachspressCoord.cpp:168-171`. -/
def numCorners (S : Static) (c : Nat) : M Nat := do
  let row ← rd S.corners c
  .ok row.length

/-- `factor`.  Models: `WachspressCoord.cpp:222-230`. -/
def factor (g : Grid) (c : Nat) (x : List Rat) (f : Nat) : M Rat := do
  let s ← loop g.dim (fun d s => do
    let n ← rd g.normals (g.dim * f + d)
    let m ← rd g.centroids (g.dim * f + d)
    let xd ← rd x d
    .ok (s + n * (m - xd))) 0
  let a ← rd g.faceCells (2 * f)
  if a ≠ (c : Int) then do
    let b ← rd g.faceCells (2 * f + 1)
    check (decide (b = (c : Int)))
    .ok (-s)
  else .ok s

/-- The weight of a corner.  Models: `WachspressCoord.cpp:212-232`. -/
def weight (g : Grid) (S : Static) (c : Nat) (x : List Rat) (k : Corner) : M Rat := do
  let l ← rd S.nonadj k.id
  l.foldlM (fun w f => do
    let q ← factor g c x f
    .ok (w * q)) k.volume

/-- `cartToBary(cell, x, xb)`; a weight is written once, when it is complete.  Models: `WachspressCoord.cpp:200-237`. -/
def cartToBary (g : Grid) (S : Static) (c : Nat) (x xb : List Rat) : M (List Rat) := do
  let row ← rd S.corners c
  let t ← loop row.length (fun i (t : List Rat × Rat) => do
    let k ← rd row i
    let w ← weight g S c x k
    let xb ← wr t.1 i w
    .ok (xb, t.2 + w)) (xb, 0)
  loop row.length (fun i xb => do
    let v ← rd xb i
    let q ← fdiv v t.2
    wr xb i q) t.1

/-! ### Velocities -/

/-- `VelocityInterpolationConstant::interpolate`; the assertion is checked for all faces.  Models: `VelocityInterpolation.cpp:59-80`. -/
def interpolateConstant (g : Grid) (flux : List Rat) (c : Nat) (v : List Rat) : M (List Rat) := do
  let v ← loop g.dim (fun d v => wr v d 0) v
  let a ← rd g.facepos c
  let b ← rd g.facepos (c + 1)
  forRange a b (fun i v => do
    let f ← rd g.cellfaces i
    let c1 ← rd g.faceCells (2 * f)
    let q ← rd flux f
    let c2 ← rd g.faceCells (2 * f + 1)
    check (decide (c1 = (c : Int) ∨ c2 = (c : Int)))
    loop g.dim (fun d v => do
      let y ← rd g.centroids (f * g.dim + d)
      let z ← rd g.cellCentroids (c * g.dim + d)
      let vol ← rd g.volumes c
      let t ← fdiv ((if (c : Int) = c1 then q else -q) * (y - z)) vol
      addAt v d t) v) v

/-- `N`, by columns.  Models: `VelocityInterpolation.cpp:117-122`. -/
def normalMatrix (g : Grid) (fs : List Nat) : Block := fun k => g.normals.getD (g.dim * fs.getD (k % g.dim) 0 + k / g.dim) 0

/-- The faces and fluxes of a corner: all of `N` and `f` can be read.  Models: `VelocityInterpolation.cpp:116-124`. -/
def cornerFaces (g : Grid) (flux : List Rat) (S : Static) (id : Nat) : M (List Nat × List Rat) :=
  loop g.dim (fun j (r : List Nat × List Rat) => do
    let f ← rd S.adj (g.dim * id + j)
    let _ ← normal g f
    let q ← rd flux f
    .ok (r.1 ++ [f], r.2 ++ [q])) ([], [])

/-- The velocity of one corner.  Models: `VelocityInterpolation.cpp:115-155`. -/
def cornerVelocity (lu : Lapack) (g : Grid) (flux : List Rat) (S : Static) (k : Corner) (cv : List Rat) : M (List Rat) := do
  let r ← cornerFaces g flux S k.id
  match lu g.dim (normalMatrix g r.1) with
  | none => .error .thrown
  | some s => loop g.dim (fun d cv => wr cv (g.dim * k.id + d) (s (fun j => r.2.getD j 0) d)) cv

/-- `VelocityInterpolationECVI::setupFluxes(flux)`: the new `corner_velocity_`.  Models: `VelocityInterpolation.cpp:98-158`. -/
def setupFluxes (lu : Lapack) (g : Grid) (S : Static) (flux cv : List Rat) : M (List Rat) :=
  loop g.nc (fun c cv => do
    let row ← rd S.corners c
    row.foldlM (fun cv k => cornerVelocity lu g flux S k cv) cv)
    (cv.take (g.dim * S.corners.flatten.length) ++ List.replicate (g.dim * S.corners.flatten.length - cv.length) 0)

/-- `VelocityInterpolationECVI::interpolate(cell, x, v)`; `bary` is `bary_coord_`.  Models: `VelocityInterpolation.cpp:166-181`. -/
def interpolate (g : Grid) (S : Static) (cv bary : List Rat) (c : Nat) (x v : List Rat) : M (List Rat × List Rat) := do
  let row ← rd S.corners c
  let b ← cartToBary g S c x (bary.take row.length ++ List.replicate (row.length - bary.length) 0)
  let v ← loop g.dim (fun d v => wr v d 0) v
  let v ← loop row.length (fun i v => do
    let k ← rd row i
    loop g.dim (fun d v => do
      let y ← rd cv (g.dim * k.id + d)
      let z ← rd b i
      addAt v d (y * z)) v) v
  .ok (v, b)

end Opm.Wachspress
