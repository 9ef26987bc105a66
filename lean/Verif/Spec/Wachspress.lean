import Verif.Model.Wachspress
import Verif.Spec.CfsTpfa
import Verif.Spec.Geometry
import Mathlib.Algebra.BigOperators.Group.Finset.Basic
import Mathlib.LinearAlgebra.Matrix.Determinant.Basic
/-!
# Generalised barycentric coordinates and velocities: specification
-/

namespace Opm.Wachspress
open Opm

/-- What the arrays of a grid say: the faces of each cell, and the nodes of each face. -/
structure Mesh where
  faces : Nat → List Nat
  nodes : Nat → List Nat

/-- Node `v` is a vertex of cell `c`. -/
def Mesh.Vertex (m : Mesh) (c v : Nat) : Prop := ∃ f ∈ m.faces c, v ∈ m.nodes f

/-- The faces of cell `c` that have the node `v`; those that do not. -/
def Mesh.at (m : Mesh) (c v : Nat) : List Nat := (m.faces c).filter (fun f => decide (v ∈ m.nodes f))
def Mesh.off (m : Mesh) (c v : Nat) : List Nat := (m.faces c).filter (fun f => decide (v ∉ m.nodes f))

/-- Component `d` of the normal of face `f`. -/
def nrm (g : Grid) (f d : Nat) : Rat := g.normals.getD (g.dim * f + d) 0

/-- Product of the normal of face `f` with a vector: what flows through the face, at this velocity. -/
def through (g : Grid) (f : Nat) (u : Nat → Rat) : Rat := ∑ d ∈ Finset.range g.dim, nrm g f d * u d

/-- Distance of a point from the plane of face `f`, positive on the side of cell `c`, times the area of the face. -/
def dist (g : Grid) (c f : Nat) (x : Nat → Rat) : Rat :=
  (if g.faceCells.getD (2 * f) (-1) = (c : Int) then 1 else -1) * through g f (fun d => g.centroids.getD (g.dim * f + d) 0 - x d)

/-- The arrays of the grid are those of the mesh `m`, in two or three dimensions; a cell does not have a face twice, nor a face a node; a face of a cell has the cell on one side. -/
structure GridOk (g : Grid) (m : Mesh) : Prop where
  dim : g.dim = 2 ∨ g.dim = 3
  cell : ∀ c, c < g.nc → Geometry.RowOf g.facepos g.cellfaces c (m.faces c)
  face : ∀ c f, c < g.nc → f ∈ m.faces c → Geometry.RowOf g.nodepos g.facenodes f (m.nodes f)
  once : ∀ c, c < g.nc → (m.faces c).Nodup
  onceN : ∀ c f, c < g.nc → f ∈ m.faces c → (m.nodes f).Nodup
  side : ∀ c f, c < g.nc → f ∈ m.faces c → 2 * f + 1 < g.faceCells.length ∧ (g.faceCells.getD (2 * f) (-1) = (c : Int) ∨ g.faceCells.getD (2 * f + 1) (-1) = (c : Int))
  normals : ∀ c f, c < g.nc → f ∈ m.faces c → g.dim * f + g.dim ≤ g.normals.length
  centroids : ∀ c f, c < g.nc → f ∈ m.faces c → g.dim * f + g.dim ≤ g.centroids.length

/-- As many faces as there are dimensions meet in each vertex of a cell. -/
def Simple (g : Grid) (m : Mesh) : Prop := ∀ c v, c < g.nc → m.Vertex c v → (m.at c v).length = g.dim

/-- The normals of the faces that meet in a vertex are independent: only the zero vector is perpendicular to all of them. -/
def Independent (g : Grid) (m : Mesh) : Prop :=
  ∀ c v, c < g.nc → m.Vertex c v → ∀ u : Nat → Rat, (∀ f ∈ m.at c v, through g f u = 0) → ∀ d, d < g.dim → u d = 0

/-- Volume of the parallelepiped spanned by the normals of the faces in a list. -/
def span (g : Grid) (n : Nat) (l : List Nat) : Rat := |Matrix.det (Matrix.of fun i j : Fin n => nrm g (l.getD i 0) j)|

/-- The tables of the object describe the corners of all cells: vertices in increasing order, corner numbers one after the other, faces that meet in the corner, and the others. -/
structure Made (g : Grid) (m : Mesh) (S : Static) : Prop where
  cells : S.corners.length = g.nc
  adjLen : S.adj.length = g.dim * S.corners.flatten.length
  increasing : ∀ (c : Nat) (row : List Corner), S.corners[c]? = some row → (row.map (·.vertex)).Pairwise (· < ·)
  vertex : ∀ (c : Nat) (row : List Corner), S.corners[c]? = some row → ∀ v, v ∈ row.map (·.vertex) ↔ m.Vertex c v
  id : ∀ (c : Nat) (row : List Corner) (i : Nat) (k : Corner), S.corners[c]? = some row → row[i]? = some k → k.id = (S.corners.take c).flatten.length + i
  at' : ∀ (c : Nat) (row : List Corner) (k : Corner), S.corners[c]? = some row → k ∈ row → (S.adj.drop (g.dim * k.id)).take g.dim = m.at c k.vertex
  off : ∀ (c : Nat) (row : List Corner) (k : Corner), S.corners[c]? = some row → k ∈ row → ∃ l : List Nat, S.nonadj[k.id]? = some l ∧ l.Perm (m.off c k.vertex)
  volume : ∀ (c : Nat) (row : List Corner) (k : Corner), S.corners[c]? = some row → k ∈ row → k.volume = span g g.dim (m.at c k.vertex)

/-- The point is in cell `c`, and the faces it lies on, if any, have a vertex in common: points inside, on a face, on an edge, and vertices. -/
def Within (g : Grid) (m : Mesh) (c : Nat) (x : Nat → Rat) : Prop :=
  (∀ f ∈ m.faces c, 0 ≤ dist g c f x) ∧ ∃ v, m.Vertex c v ∧ ∀ f ∈ m.faces c, dist g c f x = 0 → v ∈ m.nodes f

/-- `b` are barycentric coordinates of a point with respect to the `n` vertices of cell `c`: not negative, with sum one, zero for vertices that are not on a face the point is on. -/
structure Bary (g : Grid) (m : Mesh) (c : Nat) (x : Nat → Rat) (vert : Nat → Nat) (n : Nat) (b : Nat → Rat) : Prop where
  nonneg : ∀ i, i < n → 0 ≤ b i
  one : ∑ i ∈ Finset.range n, b i = 1
  zero : ∀ i f, i < n → f ∈ m.faces c → dist g c f x = 0 → vert i ∉ m.nodes f → b i = 0

/-- The nodes of cell `c` are the corners of a convex polygon or polyhedron, in the positions `X`: a node is on the planes of its faces and inside of those of the other faces; different nodes have
different positions; and faces that have an edge in common (a face, in two dimensions) have exactly two nodes in common, the ends of the edge. -/
structure Convex (g : Grid) (m : Mesh) (c : Nat) (X : Nat → Nat → Rat) : Prop where
  on : ∀ f v, f ∈ m.faces c → m.Vertex c v → v ∈ m.nodes f → dist g c f (X v) = 0
  inside : ∀ f v, f ∈ m.faces c → m.Vertex c v → v ∉ m.nodes f → 0 < dist g c f (X v)
  distinct : ∀ v w, m.Vertex c v → m.Vertex c w → (∀ d, d < g.dim → X v d = X w d) → v = w
  ends : ∀ L : List Nat, L.Nodup → L.length + 1 = g.dim → (∀ f ∈ L, f ∈ m.faces c) → (∃ v, ∀ f ∈ L, v ∈ m.nodes f) →
    ∃ a b, a ≠ b ∧ ∀ v, (∀ f ∈ L, v ∈ m.nodes f) ↔ v = a ∨ v = b

/-- The flux through face `f`, out of cell `c`. -/
def outflow (g : Grid) (flux : List Rat) (c f : Nat) : Rat := if g.faceCells.getD (2 * f) (-1) = (c : Int) then flux.getD f 0 else -flux.getD f 0

/-- The divergence theorem for the coordinate functions, relative to the centroid of the cell: the sum of outward normals times centroids of faces is the volume times the identity. -/
def Gauss (g : Grid) (m : Mesh) (c : Nat) : Prop := ∀ d j, d < g.dim → j < g.dim →
  ((m.faces c).map (fun f => (if g.faceCells.getD (2 * f) (-1) = (c : Int) then nrm g f j else -nrm g f j) * (g.centroids.getD (f * g.dim + d) 0 - g.cellCentroids.getD (c * g.dim + d) 0))).sum =
    if d = j then g.volumes.getD c 0 else 0

end Opm.Wachspress
