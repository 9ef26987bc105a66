import Verif.Model.DGBasis
import Mathlib.Algebra.BigOperators.Intervals
import Mathlib.Algebra.Field.Rat
/-!
# The polynomials which the bases of the discontinuous Galerkin method stand for
-/

namespace Opm.DGBasis
open Opm

/-- How many polynomials there are. -/
def count : Kind → Int → Nat → Nat
  | _, 0, _ => 1
  | .totalDegree, _, dim => dim + 1
  | .multilin, _, dim => 2 ^ dim

/-- Polynomial number `ix` at the point with coordinates `y` relative to the centroid of the cell: `1`, then the coordinates; or, for the multilinear basis, the product of `1/2 - y_d` or `1/2 + y_d` over the
directions, the choice given by the binary digits of the number, the first direction by the leading one. -/
def poly : Kind → Int → Nat → Nat → (Nat → Rat) → Rat
  | _, 0, _, _, _ => 1
  | .totalDegree, _, _, 0, _ => 1
  | .totalDegree, _, _, ix + 1, y => y ix
  | .multilin, _, dim, ix, y => ∏ d ∈ Finset.range dim, if ix.testBit (dim - 1 - d) then 1 / 2 + y d else 1 / 2 - y d

/-- Coordinates of the point `x` relative to the centroid of the cell. -/
def rel (b : Basis) (cell : Nat) (x : List Rat) (d : Nat) : Rat := x.getD d 0 - b.centroids.getD (b.dim * cell + d) 0

/-- The function `Σ cᵢ bᵢ` in a cell, at the point `x`. -/
def value (b : Basis) (cell : Nat) (c x : List Rat) : Rat :=
  ∑ ix ∈ Finset.range (count b.kind b.degree b.dim), c.getD ix 0 * poly b.kind b.degree b.dim ix (rel b cell x)

/-- The partial derivative of a polynomial in direction `d`. -/
def deriv (b : Basis) (ix d : Nat) (y : Nat → Rat) : Rat :=
  if b.degree = 0 then 0 else match b.kind with
    | .totalDegree => if ix = d + 1 then 1 else 0
    | .multilin => ∏ e ∈ Finset.range b.dim, if d = e then (if ix.testBit (b.dim - 1 - e) then 1 else -1) else if ix.testBit (b.dim - 1 - e) then 1 / 2 + y e else 1 / 2 - y e

/-- A basis that the constructor returned for a grid with at least one dimension, and a cell of that grid. -/
structure Usable (b : Basis) (cell : Nat) : Prop where
  made : make b.kind b.dim b.centroids b.degree = .ok b
  dims : 1 ≤ b.dim
  cell : b.dim * cell + b.dim ≤ b.centroids.length

end Opm.DGBasis
