import Verif.Model.InitState
/-!
# Hydrostatic equilibrium, and states of two phases

The last coordinate of a centroid is its depth, counted downwards.
-/

namespace Opm.InitState

/-- A pressure in equilibrium: given at the datum, and increasing with the weight of water below the contact and of oil above it. -/
structure Hydrostatic (P : Rat → Rat) (woc water oil grav datumZ datumP : Rat) : Prop where
  datum : P datumZ = datumP
  below : ∀ a b, woc ≤ a → woc ≤ b → P b - P a = (b - a) * grav * water
  above : ∀ a b, a ≤ woc → b ≤ woc → P b - P a = (b - a) * grav * oil

/-- Arrays of a grid have the sizes they should have, and sides of faces are cells or -1. -/
structure SGrid.Fits (g : SGrid) : Prop where
  dim : 0 < g.dim
  cellCent : g.cellCent.length = g.dim * g.cells
  faceCent : g.faceCent.length = g.dim * g.faces
  faceCells : g.faceCells.length = 2 * g.faces
  sides : ∀ c ∈ g.faceCells, c = -1 ∨ (0 ≤ c ∧ c < g.cells)

/-- Depth of a cell. -/
def SGrid.z (g : SGrid) (c : Nat) : Rat := g.cellCent.getD (g.dim * c + (g.dim - 1)) 0

/-- Square of the distance between the centroids of a face and of a cell. -/
def SGrid.dist2 (g : SGrid) (f c : Nat) : Rat := ((List.range g.dim).map (fun k => (g.faceCent.getD (g.dim * f + k) 0 - g.cellCent.getD (g.dim * c + k) 0) ^ 2)).sum

/-- `satRange` gives the smallest and largest first saturation of any cells. -/
def RangeOf (range : Range) (np n : Nat) (lo hi : Nat → Rat) : Prop :=
  ∀ cells, (∀ c ∈ cells, c < n) → ∃ a b, range cells = .ok (a, b) ∧ ∀ i c, cells[i]? = some c → a[np * i]? = some (lo c) ∧ b[np * i]? = some (hi c)

/-- Pressures of faces: the one of the cell at the boundary; between two cells the mean, where the nearer cell counts more. -/
structure FaceMeans (sqrt : Rat → Rat) (g : SGrid) (P : Nat → Rat) (fp : List Rat) : Prop where
  length : fp.length = g.faces
  boundary : ∀ f c : Nat, (g.faceCells[2 * f]? = some (c : Int) ∧ g.faceCells[2 * f + 1]? = some (-1 : Int)) ∨ (g.faceCells[2 * f]? = some (-1 : Int) ∧ g.faceCells[2 * f + 1]? = some (c : Int)) → fp[f]? = some (P c)
  inner : ∀ f a b : Nat, g.faceCells[2 * f]? = some (a : Int) → g.faceCells[2 * f + 1]? = some (b : Int) →
    ∃ x, fp[f]? = some x ∧ x * (sqrt (g.dist2 f a) + sqrt (g.dist2 f b)) = P a * sqrt (g.dist2 f b) + P b * sqrt (g.dist2 f a)

/-- No face between two cells has both centroids of the cells in its own. -/
def Apart (sqrt : Rat → Rat) (g : SGrid) : Prop := ∀ f a b : Nat, g.faceCells[2 * f]? = some (a : Int) → g.faceCells[2 * f + 1]? = some (b : Int) → sqrt (g.dist2 f a) + sqrt (g.dist2 f b) ≠ 0

/-- A state of two phases whose saturations add up to one: the first saturation and the pressure of each cell. -/
structure Initial (sqrt : Rat → Rat) (g : SGrid) (st : State) (sw P : Nat → Rat) : Prop where
  satLength : st.sat.length = 2 * g.cells
  pressLength : st.press.length = g.cells
  fluxLength : st.flux.length = g.faces
  first : ∀ c, c < g.cells → st.sat[2 * c]? = some (sw c)
  second : ∀ c, c < g.cells → st.sat[2 * c + 1]? = some (1 - sw c)
  pressure : ∀ c, c < g.cells → st.press[c]? = some (P c)
  faces : FaceMeans sqrt g P st.fpress

end Opm.InitState
