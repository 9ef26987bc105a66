import Verif.Model.CartGrid
import Verif.Spec.Grid
import Verif.Spec.Slice
/-!
# What a Cartesian grid is

Numbering of the entities of a box of `nx × ny × nz` cells, and the contents of the grid arrays in terms of it.
-/

namespace Opm.Cart

/-- Number of cell `(i, j, k)`. -/
def cell3 (nx ny i j k : Nat) : Nat := i + nx * (j + ny * k)
/-- Number of node `(i, j, k)`. -/
def node3 (nx ny i j k : Nat) : Nat := i + (nx + 1) * (j + (ny + 1) * k)
/-- Number of the x-face at position `i` on the x axis, in row `(j, k)`. -/
def xface3 (nx ny i j k : Nat) : Nat := i + (nx + 1) * (j + ny * k)
/-- Number of the y-face at position `j` on the y axis. -/
def yface3 (nx ny nz i j k : Nat) : Nat := (nx + 1) * ny * nz + (i + nx * (j + (ny + 1) * k))
/-- Number of the z-face at position `k` on the z axis. -/
def zface3 (nx ny nz i j k : Nat) : Nat := (nx + 1) * ny * nz + nx * (ny + 1) * nz + (i + nx * (j + ny * k))

/-- The cell before position `p` on an axis with cells `0, …, n - 1`, or outside. -/
def before (p : Nat) (c : Nat → Nat) : Int := if p = 0 then -1 else (c (p - 1) : Int)
/-- The cell after position `p`, or outside. -/
def after (p n : Nat) (c : Nat → Nat) : Int := if p = n then -1 else (c p : Int)

/-- Face `f` has the given nodes, and the given neighbours. -/
def Grid.FaceIs (G : Grid) (d f : Nat) (nodes : List Nat) (a b : Int) : Prop :=
  G.faceNodepos[f]? = some (d * f) ∧ G.faceNodepos[f + 1]? = some (d * f + d) ∧ slice G.faceNodes (d * f) (d * f + d) = .ok nodes ∧ G.topo.Sides f a b

/-- Cell `c` has the given faces, with the given tags. -/
def Grid.CellIs (G : Grid) (d c : Nat) (faces tags : List Nat) : Prop :=
  G.cellFacepos[c]? = some (d * c) ∧ G.cellFacepos[c + 1]? = some (d * c + d) ∧ slice G.cellFaces (d * c) (d * c + d) = .ok faces ∧
    slice G.cellFacetag (d * c) (d * c + d) = .ok tags

/-- The topology of a three-dimensional Cartesian grid. -/
structure IsCart3d (nx ny nz : Nat) (G : Grid) : Prop where
  ndims : G.ndims = 3
  dims : G.cartdims = (nx, ny, nz)
  nc : G.nc = nx * ny * nz
  nf : G.nf = (nx + 1) * ny * nz + nx * (ny + 1) * nz + nx * ny * (nz + 1)
  nn : G.nn = (nx + 1) * (ny + 1) * (nz + 1)
  cell : ∀ i j k, i < nx → j < ny → k < nz → G.CellIs 6 (cell3 nx ny i j k)
    [xface3 nx ny i j k, xface3 nx ny (i + 1) j k, yface3 nx ny nz i j k, yface3 nx ny nz i (j + 1) k, zface3 nx ny nz i j k, zface3 nx ny nz i j (k + 1)]
    [0, 1, 2, 3, 4, 5]
  xface : ∀ i j k, i ≤ nx → j < ny → k < nz → G.FaceIs 4 (xface3 nx ny i j k)
    [node3 nx ny i j k, node3 nx ny i (j + 1) k, node3 nx ny i (j + 1) (k + 1), node3 nx ny i j (k + 1)]
    (before i (fun i => cell3 nx ny i j k)) (after i nx (fun i => cell3 nx ny i j k))
  yface : ∀ i j k, i < nx → j ≤ ny → k < nz → G.FaceIs 4 (yface3 nx ny nz i j k)
    [node3 nx ny i j k, node3 nx ny i j (k + 1), node3 nx ny (i + 1) j (k + 1), node3 nx ny (i + 1) j k]
    (before j (fun j => cell3 nx ny i j k)) (after j ny (fun j => cell3 nx ny i j k))
  zface : ∀ i j k, i < nx → j < ny → k ≤ nz → G.FaceIs 4 (zface3 nx ny nz i j k)
    [node3 nx ny i j k, node3 nx ny (i + 1) j k, node3 nx ny (i + 1) (j + 1) k, node3 nx ny i (j + 1) k]
    (before k (fun k => cell3 nx ny i j k)) (after k nz (fun k => cell3 nx ny i j k))

/-- Geometry of a cell. -/
def Grid.CellGeo (G : Grid) (d c : Nat) (cent : List Rat) (vol : Rat) : Prop :=
  slice G.cellCentroids (d * c) (d * c + d) = .ok cent ∧ G.cellVolumes[c]? = some vol

/-- Geometry of a face. -/
def Grid.FaceGeo (G : Grid) (d f : Nat) (nrm cent : List Rat) (area : Rat) : Prop :=
  slice G.faceNormals (d * f) (d * f + d) = .ok nrm ∧ slice G.faceCentroids (d * f) (d * f + d) = .ok cent ∧ G.faceAreas[f]? = some area

/-- The midpoint of interval `i` and its length. -/
def mid (X : Nat → Rat) (i : Nat) : Rat := (X i + X (i + 1)) / 2
def len (X : Nat → Rat) (i : Nat) : Rat := X (i + 1) - X i

/-- The geometry of a three-dimensional Cartesian grid with grid lines at `X i`, `Y j`, `Z k`. -/
structure IsBoxes3d (nx ny nz : Nat) (X Y Z : Nat → Rat) (G : Grid) : Prop where
  cell : ∀ i j k, i < nx → j < ny → k < nz → G.CellGeo 3 (cell3 nx ny i j k) [mid X i, mid Y j, mid Z k] (len X i * len Y j * len Z k)
  xface : ∀ i j k, i ≤ nx → j < ny → k < nz → G.FaceGeo 3 (xface3 nx ny i j k) [len Y j * len Z k, 0, 0] [X i, mid Y j, mid Z k] (len Y j * len Z k)
  yface : ∀ i j k, i < nx → j ≤ ny → k < nz → G.FaceGeo 3 (yface3 nx ny nz i j k) [0, len X i * len Z k, 0] [mid X i, Y j, mid Z k] (len X i * len Z k)
  zface : ∀ i j k, i < nx → j < ny → k ≤ nz → G.FaceGeo 3 (zface3 nx ny nz i j k) [0, 0, len X i * len Y j] [mid X i, mid Y j, Z k] (len X i * len Y j)
  node : ∀ i j k, i ≤ nx → j ≤ ny → k ≤ nz → slice G.nodeCoord (3 * node3 nx ny i j k) (3 * node3 nx ny i j k + 3) = .ok [X i, Y j, Z k]
  volumes : G.cellVolumes.length = nx * ny * nz

/-! ### Two dimensions -/

def cell2 (nx i j : Nat) : Nat := i + nx * j
def node2 (nx i j : Nat) : Nat := i + (nx + 1) * j
def xface2 (nx i j : Nat) : Nat := i + (nx + 1) * j
def yface2 (nx ny i j : Nat) : Nat := (nx + 1) * ny + (i + nx * j)

/-- The topology of a two-dimensional Cartesian grid. -/
structure IsCart2d (nx ny : Nat) (G : Grid) : Prop where
  ndims : G.ndims = 2
  dims : G.cartdims = (nx, ny, 1)
  nc : G.nc = nx * ny
  nf : G.nf = (nx + 1) * ny + nx * (ny + 1)
  nn : G.nn = (nx + 1) * (ny + 1)
  cell : ∀ i j, i < nx → j < ny → G.CellIs 4 (cell2 nx i j)
    [xface2 nx i j, yface2 nx ny i j, xface2 nx (i + 1) j, yface2 nx ny i (j + 1)] [0, 2, 1, 3]
  xface : ∀ i j, i ≤ nx → j < ny → G.FaceIs 2 (xface2 nx i j) [node2 nx i j, node2 nx i (j + 1)]
    (before i (fun i => cell2 nx i j)) (after i nx (fun i => cell2 nx i j))
  yface : ∀ i j, i < nx → j ≤ ny → G.FaceIs 2 (yface2 nx ny i j) [node2 nx (i + 1) j, node2 nx i j]
    (before j (fun j => cell2 nx i j)) (after j ny (fun j => cell2 nx i j))

/-- The geometry of a two-dimensional Cartesian grid. -/
structure IsBoxes2d (nx ny : Nat) (X Y : Nat → Rat) (G : Grid) : Prop where
  cell : ∀ i j, i < nx → j < ny → G.CellGeo 2 (cell2 nx i j) [mid X i, mid Y j] (len X i * len Y j)
  xface : ∀ i j, i ≤ nx → j < ny → G.FaceGeo 2 (xface2 nx i j) [len Y j, 0] [X i, mid Y j] (len Y j)
  yface : ∀ i j, i < nx → j ≤ ny → G.FaceGeo 2 (yface2 nx ny i j) [0, len X i] [mid X i, Y j] (len X i)
  node : ∀ i j, i ≤ nx → j ≤ ny → slice G.nodeCoord (2 * node2 nx i j) (2 * node2 nx i j + 2) = .ok [X i, Y j]
  volumes : G.cellVolumes.length = nx * ny

end Opm.Cart
