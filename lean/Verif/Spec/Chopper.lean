import Verif.Model.Chopper
import Verif.Spec.GridInspector
/-!
# Specification: a part of a corner-point grid
-/

namespace Opm.Chopper
open Opm Opm.GridInspector

/-- A number moved to the nearest point between two limits. -/
def clamp (lo hi v : Rat) : Rat := min hi (max lo v)

/-- Coordinate `m` of pillar `(i, j)`. -/
def pillar (I : Inspector) (i j m : Nat) : Rat := I.coord.getD (6 * (i + (I.nx + 1) * j) + m) 0

/-- `C` is the part of `I` with the columns from `(imin, jmin)` and the layers from `kmin`, its depths moved between the limits, with its first pillar moved to the origin if `reset`. -/
structure Part (I C : Inspector) (imin jmin kmin : Nat) (lo hi : Rat) (reset : Bool) (dz : Rat) : Prop where
  sized : WellSized C
  depth : ∀ i j k a b c, i < C.nx → j < C.ny → k < C.nz → a ≤ 1 → b ≤ 1 → c ≤ 1 →
    cornerZ C i j k a b c = clamp lo hi (cornerZ I (i + imin) (j + jmin) (k + kmin) a b c) - (if reset then lo else 0)
  kept : reset = false → ∀ i j m, i ≤ C.nx → j ≤ C.ny → m < 6 → pillar C i j m = pillar I (i + imin) (j + jmin) m
  xs : reset = true → ∀ i j m, i ≤ C.nx → j ≤ C.ny → m = 0 ∨ m = 3 →
    pillar C i j m = pillar I (i + imin) (j + jmin) m - pillar I imin jmin 0
  ys : reset = true → ∀ i j m, i ≤ C.nx → j ≤ C.ny → m = 1 ∨ m = 4 →
    pillar C i j m = pillar I (i + imin) (j + jmin) m - pillar I imin jmin 1
  zs : reset = true → ∀ i j, i ≤ C.nx → j ≤ C.ny → pillar C i j 2 = 0 ∧ pillar C i j 5 = dz

/-- The depths of the top of the grid. -/
def topDepths (I : Inspector) : Set Rat :=
  {v | ∃ i j a b, i < I.nx ∧ j < I.ny ∧ a ≤ 1 ∧ b ≤ 1 ∧ v = cornerZ I i j 0 a b 0}

/-- The depths of the bottom of the grid. -/
def bottomDepths (I : Inspector) : Set Rat :=
  {v | ∃ i j a b, i < I.nx ∧ j < I.ny ∧ a ≤ 1 ∧ b ≤ 1 ∧ v = cornerZ I i j (I.nz - 1) a b 1}

/-- The x-coordinate at depth `z` of the straight line through both ends of a pillar. -/
def xAt (I : Inspector) (i j : Nat) (z : Rat) : Rat :=
  pillar I i j 0 + (pillar I i j 3 - pillar I i j 0) * ((z - pillar I i j 2) / (pillar I i j 5 - pillar I i j 2))

end Opm.Chopper
