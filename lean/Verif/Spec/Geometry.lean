import Verif.Model.Geometry
import Verif.Spec.Slice
import Mathlib.Algebra.BigOperators.Group.List.Lemmas
/-!
# Polygons and polyhedra
-/

namespace Opm.Geometry
open V3

/-- Directed edges of the closed polygon through the points: from the last to the first, from the first to the second, and so on. -/
def edges {α : Type} (pts : List α) : List (α × α) := match pts.getLast? with
  | none => []
  | some p => (p :: pts).zip pts

/-- Vector area of a closed polygon: perpendicular to it and as long as its area if it is plane. -/
def vectorArea (pts : List V3) : V3 := smul (1 / 2) ((edges pts).map (fun e => cross e.1 e.2)).sum

/-- Mean of points. -/
def centre (pts : List V3) : V3 := smul (1 / pts.length) pts.sum

/-- Sides of the faces of a cell, seen from outside. -/
def outwardEdges (fs : List CellFace) : List (V3 × V3) := fs.flatMap (fun f => if f.first then edges f.pts else (edges f.pts).map Prod.swap)

/-- The faces enclose a cell: each side is run through as often in one direction as in the other. -/
def Closed (fs : List CellFace) : Prop := (outwardEdges fs).Perm ((outwardEdges fs).map Prod.swap)

/-- Outward vector area of a face. -/
def CellFace.out (f : CellFace) : V3 := if f.first then vectorArea f.pts else -vectorArea f.pts

/-- Six times the signed volume of a tetrahedron. -/
def det (a b c : V3) : Rat := dot a (cross b c)

/-- Triangles into which the faces of a cell are divided, seen from outside. -/
def triangles (fs : List CellFace) : List (V3 × V3 × V3) := fs.flatMap (fun f => (edges f.pts).map (fun e => if f.first then (centre f.pts, e.1, e.2) else (centre f.pts, e.2, e.1)))

/-- The volume within a closed surface of triangles: the sum of the signed volumes of the tetrahedra with the origin. -/
def volumeOf (ts : List (V3 × V3 × V3)) : Rat := (ts.map (fun t => det t.1 t.2.1 t.2.2 / 6)).sum

/-- The integral of the position over the inside: the sum of the signed volumes of the tetrahedra with the origin, each multiplied by the mean of its corners. -/
def momentOf (ts : List (V3 × V3 × V3)) : V3 := (ts.map (fun t => smul (det t.1 t.2.1 t.2.2 / 6) (smul (1 / 4) (t.1 + t.2.1 + t.2.2)))).sum

/-- No triangle of a face is folded against the normal used. -/
def Unfolded (f : CellFace) : Prop := ∀ e ∈ edges f.pts, 0 ≤ dot (cross (e.1 - centre f.pts) (e.2 - centre f.pts)) f.normal

/-- Row `f` of an array of rows, given by the positions of their beginnings, is `l`. -/
def RowOf (pos idx : List Nat) (f : Nat) (l : List Nat) : Prop := ∃ a b, pos[f]? = some a ∧ pos[f + 1]? = some b ∧ slice idx a b = .ok l

/-- Point `k` of an array of coordinates. -/
def pt (a : List Rat) (k : Nat) : V3 := ⟨a.getD (3 * k) 0, a.getD (3 * k + 1) 0, a.getD (3 * k + 2) 0⟩

/-! ### Two dimensions -/

/-- Point `k` of an array of coordinates of the plane. -/
def pt2 (a : List Rat) (k : Nat) : Rat × Rat := (a.getD (2 * k) 0, a.getD (2 * k + 1) 0)


/-- Twice the signed area within a polygon. -/
def shoelace (es : List ((Rat × Rat) × (Rat × Rat))) : Rat := (es.map (fun e => e.1.1 * e.2.2 - e.1.2 * e.2.1)).sum

end Opm.Geometry
