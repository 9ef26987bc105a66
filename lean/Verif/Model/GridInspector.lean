import Verif.Core.Mem
/-!
# Inspecting corner-point grids

Models `opm/core/io/eclipse/EclipseGridInspector.cpp`.  Numbers are exact rationals; sizes are natural numbers, and products of sizes fit in an `int`.
-/

namespace Opm.GridInspector
open Opm

/-- The keywords of the deck that are looked at.  Models: `EclipseGridInspector.cpp:54-77` (`hasField` and the values). -/
structure Deck where
  coord : Option (List Rat) := none
  zcorn : Option (List Rat) := none
  specgrid : Option (Nat × Nat × Nat) := none
  dimens : Option (Nat × Nat × Nat) := none

/-- The members of the inspector.  Models: `EclipseGridInspector.hpp` (`parser_`, `logical_gridsize_`). -/
structure Inspector where
  coord : List Rat
  zcorn : List Rat
  specgrid : Bool
  nx : Nat
  ny : Nat
  nz : Nat

/-- The constructor.  Models: `EclipseGridInspector.cpp:50-77`. -/
def make (d : Deck) : M Inspector :=
  match d.coord, d.zcorn with
  | some coord, some zcorn =>
    match d.specgrid, d.dimens with
    | some (nx, ny, nz), _ => .ok ⟨coord, zcorn, true, nx, ny, nz⟩
    | none, some (nx, ny, nz) => .ok ⟨coord, zcorn, false, nx, ny, nz⟩
    | none, none => .error .thrown
  | _, _ => .error .thrown

/-- `checkLogicalCoords`.  Models: `EclipseGridInspector.cpp:249-257`. -/
def checkCoords (I : Inspector) (i j k : Int) : M Unit :=
  if i < 0 ∨ (I.nx : Int) ≤ i then .error .thrown
  else if j < 0 ∨ (I.ny : Int) ≤ j then .error .thrown
  else if k < 0 ∨ (I.nz : Int) ≤ k then .error .thrown
  else .ok ()

/-- The sizes of `COORD` and `ZCORN`.  Models: `EclipseGridInspector.cpp:91-100`, `:199-208`. -/
def checkSizes (I : Inspector) : M Unit :=
  if 6 * ((I.nx + 1) * (I.ny + 1)) ≠ I.coord.length then .error .thrown
  else if 8 * (I.nx * I.ny * I.nz) ≠ I.zcorn.length then .error .thrown
  else .ok ()

/-- `cellIdxToLogicalCoords`, for a number of a cell that is not negative.  The largest integer below a quotient of integers is their quotient as integers.  Models: `EclipseGridInspector.cpp:176-193`. -/
def logicalCoords (I : Inspector) (cell : Nat) : M (Nat × Nat × Nat) :=
  if I.nx * I.ny = 0 then .error .ub
  else
    let h := (cell + 1) - ((cell + 1) / (I.nx * I.ny)) * I.nx * I.ny
    let h := if h = 0 then I.nx * I.ny else h
    let i := h - (h / I.nx) * I.nx
    let i := if i = 0 then I.nx else i
    let j := (h - i) / I.nx + 1
    let k := ((cell + 1) - I.nx * (j - 1) - 1) / (I.nx * I.ny) + 1
    .ok (i - 1, j - 1, k - 1)

/-- The depths of the corners; without the check of the size.  Models: `EclipseGridInspector.cpp:225-233`, `:322-331`. -/
def cornerDepths (I : Inspector) (i j k : Nat) : M (List Rat) := do
  let d1 := 2 * I.nx
  let d2 := 4 * I.nx * I.ny
  let ix := 2 * (i + j * d1 + k * d2)
  let a ← rd I.zcorn ix
  let b ← rd I.zcorn (ix + 1)
  let c ← rd I.zcorn (ix + d1)
  let d ← rd I.zcorn (ix + d1 + 1)
  let e ← rd I.zcorn (ix + d2)
  let f ← rd I.zcorn (ix + d2 + 1)
  let g ← rd I.zcorn (ix + d2 + d1)
  let h ← rd I.zcorn (ix + d2 + d1 + 1)
  .ok [a, b, c, d, e, f, g, h]

/-- `cellZvals`.  Models: `EclipseGridInspector.cpp:313-332`. -/
def cellZvals (I : Inspector) (i j k : Nat) : M (List Rat) :=
  if 8 * (I.nx * I.ny * I.nz) ≠ I.zcorn.length then .error .thrown else cornerDepths I i j k

/-- `cellVolumeVerticalPillars`.  Models: `EclipseGridInspector.cpp:195-240`. -/
def cellVolume (I : Inspector) (i j k : Int) : M Rat := do
  checkCoords I i j k
  checkSizes I
  let n := I.nx + 1
  let pix := i.toNat + j.toNat * n
  let x0 ← rd I.coord (6 * pix)
  let x1 ← rd I.coord (6 * (pix + 1))
  let x2 ← rd I.coord (6 * (pix + n))
  let x3 ← rd I.coord (6 * (pix + n + 1))
  let y0 ← rd I.coord (6 * pix + 1)
  let y1 ← rd I.coord (6 * (pix + 1) + 1)
  let y2 ← rd I.coord (6 * (pix + n) + 1)
  let y3 ← rd I.coord (6 * (pix + n + 1) + 1)
  let area := 1 / 2 * ((x3 - x0) * (y2 - y1) - (y3 - y0) * (x2 - x1))
  let z ← cornerDepths I i.toNat j.toNat k.toNat
  let c := fun m => z.getD m 0
  .ok (1 / 4 * ((c 4 - c 0) + (c 5 - c 1) + (c 6 - c 2) + (c 7 - c 3)) * area)

/-- The least and the greatest value so far; `none` stands for the values `DBL_MAX` and `-DBL_MAX` at the beginning.  Models: `EclipseGridInspector.cpp:269-293`. -/
def widen (s : Option (Rat × Rat)) (v : Rat) : Option (Rat × Rat) :=
  match s with
  | none => some (v, v)
  | some (lo, hi) => some (if v < lo then v else lo, if hi < v then v else hi)

/-- One pillar.  Models: `EclipseGridInspector.cpp:277-294`. -/
def addPillar (I : Inspector) (p : Nat) (s : Option (Rat × Rat) × Option (Rat × Rat)) : M (Option (Rat × Rat) × Option (Rat × Rat)) := do
  let x ← rd I.coord (p * 6)
  let y ← rd I.coord (p * 6 + 1)
  let x' ← rd I.coord (p * 6 + 3)
  let y' ← rd I.coord (p * 6 + 4)
  .ok (widen (widen s.1 x) x', widen (widen s.2 y) y')

/-- `getGridLimits`: least and greatest x, y and z.  An empty `ZCORN` has no least element to read.  Models: `EclipseGridInspector.cpp:260-300`. -/
def gridLimits (I : Inspector) : M ((Rat × Rat) × (Rat × Rat) × (Rat × Rat)) :=
  if I.specgrid = false then .error .thrown
  else do
    let s ← loop ((I.nx + 1) * (I.ny + 1)) (addPillar I) (none, none)
    match s.1, s.2, I.zcorn.foldl widen none with
    | some x, some y, some z => .ok (x, y, z)
    | _, _, _ => .error .ub

/-- The rise along an edge and a count of one; zeros if an end is at the given depth.  Models: `EclipseGridInspector.cpp:111-120`, `:131-162`. -/
def edge (z : List Rat) (length limit : Rat) (a b : Nat) : M (Rat × Nat) :=
  if z.getD a 0 = limit ∨ z.getD b 0 = limit then .ok (0, 0)
  else do
    let r ← fdiv (z.getD b 0 - z.getD a 0) length
    .ok (r, 1)

/-- The mean rise along four edges, the first two at the top and the last two at the bottom.  Models: `EclipseGridInspector.cpp:164-165`. -/
def dip (z : List Rat) (length zmin zmax : Rat) (e : (Nat × Nat) × (Nat × Nat) × (Nat × Nat) × (Nat × Nat)) : M Rat := do
  let r1 ← edge z length zmin e.1.1 e.1.2
  let r2 ← edge z length zmin e.2.1.1 e.2.1.2
  let r3 ← edge z length zmax e.2.2.1.1 e.2.2.1.2
  let r4 ← edge z length zmax e.2.2.2.1 e.2.2.2.2
  fdiv (r1.1 + r2.1 + r3.1 + r4.1) ((r1.2 + r2.2 + r3.2 + r4.2 : Nat) : Rat)

/-- `cellDips`.  Models: `EclipseGridInspector.cpp:88-166`. -/
def cellDips (I : Inspector) (i j k : Int) : M (Rat × Rat) := do
  checkCoords I i j k
  checkSizes I
  let z ← cellZvals I i.toNat j.toNat k.toNat
  let n := I.nx + 1
  let pix := i.toNat + j.toNat * n
  let x1 ← rd I.coord (6 * (pix + 1))
  let x0 ← rd I.coord (6 * pix)
  let y1 ← rd I.coord (6 * (pix + n) + 1)
  let y0 ← rd I.coord (6 * pix + 1)
  let lim ← gridLimits I
  let dx ← dip z (x1 - x0) lim.2.2.1 lim.2.2.2 ((0, 1), (2, 3), (4, 5), (6, 7))
  let dy ← dip z (y1 - y0) lim.2.2.1 lim.2.2.2 ((0, 2), (1, 3), (4, 6), (5, 7))
  .ok (dx, dy)

end Opm.GridInspector
