import Verif.Model.UniquePoints
/-!
# Points on pillars: specification

Corner `(I, J, K)` of a corner-point grid, `I < 2 nx`, `J < 2 ny`, `K < 2 nz`, belongs to cell `(I/2, J/2, K/2)` and lies on pillar `((I+1)/2, (J+1)/2)`.
Cells and corners are stored with the vertical index running fastest.
-/

namespace Opm.UniquePoints
open Opm

/-- The arrays of a grid description have the sizes its dimensions ask for. -/
structure Grdecl.Ok (g : Grdecl) : Prop where
  nx : 0 < g.nx
  ny : 0 < g.ny
  coord : g.coord.length = 6 * ((g.nx + 1) * (g.ny + 1))
  zcorn : g.zcorn.length = 2 * g.nx * (2 * g.ny) * (2 * g.nz)
  actnum : g.actnum.length = g.nx * g.ny * g.nz

/-- Number of pillars. -/
def Grdecl.numPillars (g : Grdecl) : Nat := (g.nx + 1) * (g.ny + 1)

/-- `(I, J, K)` is a corner. -/
def Grdecl.Corner (g : Grdecl) (I J K : Nat) : Prop := I < 2 * g.nx ∧ J < 2 * g.ny ∧ K < 2 * g.nz

/-- The pillar of a corner. -/
def Grdecl.pillarOf (g : Grdecl) (I J : Nat) : Nat := (I + 1) / 2 + (g.nx + 1) * ((J + 1) / 2)

/-- Depth of a corner. -/
def Grdecl.depth (g : Grdecl) (I J K : Nat) : Rat := g.zcorn.getD (2 * g.nz * (I + 2 * g.nx * J) + K) 0

/-- The cell of the corner is active. -/
def Grdecl.Active (g : Grdecl) (I J K : Nat) : Prop := g.actnum.getD (g.nz * (I / 2 + g.nx * (J / 2)) + K / 2) 0 ≠ 0

instance (g : Grdecl) (I J K : Nat) : Decidable (g.Active I J K) := by unfold Grdecl.Active; infer_instance

/-- `v` is the depth of an active corner on pillar `q`. -/
def Grdecl.DepthOn (g : Grdecl) (q : Nat) (v : Rat) : Prop :=
  ∃ I J K, g.Corner I J K ∧ g.Active I J K ∧ g.pillarOf I J = q ∧ g.depth I J K = v

/-- `(x, y, z)` is the point at depth `z` on the line through the two points of pillar `q`; if these have the same depth, it is above or below the first. -/
def Grdecl.OnPillar (g : Grdecl) (q : Nat) (x y z : Rat) : Prop :=
  ∃ a : Rat, x = g.coord.getD (6 * q) 0 + a * (g.coord.getD (6 * q + 3) 0 - g.coord.getD (6 * q) 0) ∧
    y = g.coord.getD (6 * q + 1) 0 + a * (g.coord.getD (6 * q + 4) 0 - g.coord.getD (6 * q + 1) 0) ∧
    (g.coord.getD (6 * q + 2) 0 ≠ g.coord.getD (6 * q + 5) 0 → z = g.coord.getD (6 * q + 2) 0 + a * (g.coord.getD (6 * q + 5) 0 - g.coord.getD (6 * q + 2) 0)) ∧
    (g.coord.getD (6 * q + 2) 0 = g.coord.getD (6 * q + 5) 0 → a = 0)

/-- Depth of point `k`. -/
def Points.z (r : Points) (k : Nat) : Rat := r.nodes.getD (3 * k + 2) 0

/-- Where the number of corner `(I, J, K)` is stored. -/
def Grdecl.slot (g : Grdecl) (I J K : Nat) : Nat := (2 + 2 * g.nz) * (I + 2 * g.nx * J) + 1 + K

/-- Depths do not decrease downwards along the active corners of column `(I, J)`. -/
def Grdecl.Downward (g : Grdecl) (I J : Nat) : Prop :=
  ∀ K K', K ≤ K' → K' < 2 * g.nz → g.Active I J K → g.Active I J K' → g.depth I J K ≤ g.depth I J K'

/-- The points `start q, …, start (q + 1) - 1` are a faithful list of depths of pillar `q`: more than `tol` apart, taken from active corners, at least one within `tol` of
each active corner, and including the deepest. -/
structure Points.PillarOk (r : Points) (g : Grdecl) (tol : Rat) (start : Nat → Nat) (q : Nat) : Prop where
  le : start q ≤ start (q + 1)
  apart : ∀ k, start q ≤ k → k + 1 < start (q + 1) → r.z k + tol < r.z (k + 1)
  mem : ∀ k, start q ≤ k → k < start (q + 1) → g.DepthOn q (r.z k)
  near : ∀ v, g.DepthOn q v → ∃ k, start q ≤ k ∧ k < start (q + 1) ∧ r.z k - v ≤ tol ∧ v - r.z k ≤ tol
  deepest : ∀ v, g.DepthOn q v → v ≤ r.z (start (q + 1) - 1)
  line : ∀ k, start q ≤ k → k < start (q + 1) → g.OnPillar q (r.nodes.getD (3 * k) 0) (r.nodes.getD (3 * k + 1) 0) (r.z k)

end Opm.UniquePoints

namespace Opm.UniquePoints

/-- The numbers given to the corners of column `(I, J)`: padded by `INT_MIN` above and `INT_MAX` below, not decreasing; a corner of an inactive cell has the number above it;
a corner of an active cell has the number of a point of its pillar that is not more than `tol` above it.  If the depths do not decrease downwards, that point is within
`tol` of the corner, and is the first such point. -/
structure Points.ColumnOk (r : Points) (g : Grdecl) (tol : Rat) (start : Nat → Nat) (I J : Nat) : Prop where
  top : r.plist[g.slot I J 0 - 1]? = some intMin
  bottom : r.plist[g.slot I J (2 * g.nz)]? = some intMax
  inactive : ∀ K, K < 2 * g.nz → ¬ g.Active I J K → r.plist[g.slot I J K]? = r.plist[g.slot I J K - 1]?
  active : ∀ K, K < 2 * g.nz → g.Active I J K → ∃ k : Nat, r.plist[g.slot I J K]? = some (k : Int) ∧ start (g.pillarOf I J) ≤ k ∧ k < start (g.pillarOf I J + 1) ∧
    g.depth I J K ≤ r.z k + tol
  sorted : ∀ K x y, K < 2 * g.nz → r.plist[g.slot I J K - 1]? = some x → r.plist[g.slot I J K]? = some y → x ≤ y
  downward : g.Downward I J → ∀ K (k : Nat), K < 2 * g.nz → g.Active I J K → r.plist[g.slot I J K]? = some (k : Int) →
    r.z k - g.depth I J K ≤ tol ∧ g.depth I J K - r.z k ≤ tol ∧ ∀ m, start (g.pillarOf I J) ≤ m → m < k → r.z m + tol < g.depth I J K

end Opm.UniquePoints
