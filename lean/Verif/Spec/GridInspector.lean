import Verif.Model.GridInspector
import Mathlib.Order.Bounds.Basic
/-!
# Specification: corner-point grids as the format defines them
-/

namespace Opm.GridInspector
open Opm

/-- The keywords have the sizes that the format asks for. -/
structure WellSized (I : Inspector) : Prop where
  coord : I.coord.length = 6 * ((I.nx + 1) * (I.ny + 1))
  zcorn : I.zcorn.length = 8 * (I.nx * I.ny * I.nz)

/-- The depth of a corner of cell `(i, j, k)`; `a`, `b`, `c` are 0 or 1 for the low and the high side.  The depths are stored with x fastest, two for each cell and direction. -/
def cornerZ (I : Inspector) (i j k a b c : Nat) : Rat :=
  I.zcorn.getD ((2 * i + a) + 2 * I.nx * ((2 * j + b) + 2 * I.ny * (2 * k + c))) 0

/-- The x-coordinate of the top of a pillar. -/
def pillarX (I : Inspector) (i j : Nat) : Rat := I.coord.getD (6 * (i + (I.nx + 1) * j)) 0

/-- The y-coordinate of the top of a pillar. -/
def pillarY (I : Inspector) (i j : Nat) : Rat := I.coord.getD (6 * (i + (I.nx + 1) * j) + 1) 0

/-- The x-coordinates of the ends of all pillars. -/
def xs (I : Inspector) : Set Rat :=
  {x | ∃ p, p < (I.nx + 1) * (I.ny + 1) ∧ (I.coord[6 * p]? = some x ∨ I.coord[6 * p + 3]? = some x)}

/-- The y-coordinates of the ends of all pillars. -/
def ys (I : Inspector) : Set Rat :=
  {y | ∃ p, p < (I.nx + 1) * (I.ny + 1) ∧ (I.coord[6 * p + 1]? = some y ∨ I.coord[6 * p + 4]? = some y)}

/-- A pair of the least and the greatest element of a set. -/
def Range (S : Set Rat) (r : Rat × Rat) : Prop := IsLeast S r.1 ∧ IsGreatest S r.2

/-- Twice the area to the left of the way from one point to another, as seen from the origin. -/
def cross (p q : Rat × Rat) : Rat := p.1 * q.2 - p.2 * q.1

/-- The area of a quadrilateral, by the formula of the shoelace; positive if its corners are listed counterclockwise. -/
def area4 (p q r s : Rat × Rat) : Rat := (cross p q + cross q r + cross r s + cross s p) / 2

/-- The area of the column of cells `(i, j, ·)`, seen from above. -/
def columnArea (I : Inspector) (i j : Nat) : Rat :=
  area4 (pillarX I i j, pillarY I i j) (pillarX I (i + 1) j, pillarY I (i + 1) j)
    (pillarX I (i + 1) (j + 1), pillarY I (i + 1) (j + 1)) (pillarX I i (j + 1), pillarY I i (j + 1))

/-- The thickness of a cell along one of its pillars. -/
def thickness (I : Inspector) (i j k a b : Nat) : Rat := cornerZ I i j k a b 1 - cornerZ I i j k a b 0

/-- A grid on a tilted rectangle: pillars at `X i`, `Y j`; the surfaces number `2 k + c` have slopes `a` and `b`. -/
structure Tilted (I : Inspector) (X Y W : Nat → Rat) (a b : Rat) : Prop where
  x : ∀ i j, i ≤ I.nx → j ≤ I.ny → pillarX I i j = X i
  y : ∀ i j, i ≤ I.nx → j ≤ I.ny → pillarY I i j = Y j
  z : ∀ i j k s t c, i < I.nx → j < I.ny → k < I.nz → s ≤ 1 → t ≤ 1 → c ≤ 1 →
    cornerZ I i j k s t c = W (2 * k + c) + a * X (i + s) + b * Y (j + t)
  dx : ∀ i, i < I.nx → X i ≠ X (i + 1)
  dy : ∀ j, j < I.ny → Y j ≠ Y (j + 1)

/-- An edge of the cell counts for the dip: neither end is at the least depth of all (upper edges) or at the greatest depth of all (lower edges). -/
def EdgeCounts (I : Inspector) (i j k : Nat) (e f : Nat × Nat) (c : Nat) : Prop :=
  if c = 0 then ¬IsLeast {z | z ∈ I.zcorn} (cornerZ I i j k e.1 e.2 0) ∧ ¬IsLeast {z | z ∈ I.zcorn} (cornerZ I i j k f.1 f.2 0)
  else ¬IsGreatest {z | z ∈ I.zcorn} (cornerZ I i j k e.1 e.2 1) ∧ ¬IsGreatest {z | z ∈ I.zcorn} (cornerZ I i j k f.1 f.2 1)

/-- The edges of a cell along x: both ends on the cell's sides, and top (0) or bottom (1). -/
def xEdges : List ((Nat × Nat) × (Nat × Nat) × Nat) :=
  [((0, 0), (1, 0), 0), ((0, 1), (1, 1), 0), ((0, 0), (1, 0), 1), ((0, 1), (1, 1), 1)]

/-- The edges of a cell along y. -/
def yEdges : List ((Nat × Nat) × (Nat × Nat) × Nat) :=
  [((0, 0), (0, 1), 0), ((1, 0), (1, 1), 0), ((0, 0), (0, 1), 1), ((1, 0), (1, 1), 1)]

open Classical in
/-- The increases of the depth per length along those edges that count. -/
noncomputable def rises (I : Inspector) (i j k : Nat) (length : Rat) (edges : List ((Nat × Nat) × (Nat × Nat) × Nat)) : List Rat :=
  (edges.filter (fun e => EdgeCounts I i j k e.1 e.2.1 e.2.2)).map
    (fun e => (cornerZ I i j k e.2.1.1 e.2.1.2 e.2.2 - cornerZ I i j k e.1.1 e.1.2 e.2.2) / length)

/-- The increases along x. -/
noncomputable def xRises (I : Inspector) (i j k : Nat) : List Rat :=
  rises I i j k (pillarX I (i + 1) j - pillarX I i j) xEdges

/-- The increases along y. -/
noncomputable def yRises (I : Inspector) (i j k : Nat) : List Rat :=
  rises I i j k (pillarY I i (j + 1) - pillarY I i j) yEdges

/-- The mean of a list of numbers. -/
def mean (l : List Rat) : Rat := l.sum / l.length

end Opm.GridInspector
