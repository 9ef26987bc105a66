import Verif.Model.GridInspector
/-!
# Cutting a part out of a corner-point grid

Models `opm/core/io/eclipse/CornerpointChopper.hpp`: the constructor and `chop`, with the fields for cells separately.  Grids are those of `Model/GridInspector.lean`.
-/

namespace Opm.Chopper
open Opm Opm.GridInspector

/-- The depths of layer `k`.  Models: `CornerpointChopper.hpp:168`, `:188`, `:197`. -/
def layer (I : Inspector) (k : Nat) : List Rat := (I.zcorn.drop (k * (8 * I.nx * I.ny))).take (8 * I.nx * I.ny)

/-- The depths of the first surface.  Models: `CornerpointChopper.hpp:47`. -/
def firstSurface (I : Inspector) : List Rat := I.zcorn.take (8 * I.nx * I.ny / 2)

/-- The depths of the last surface.  Models: `CornerpointChopper.hpp:48-49`. -/
def lastSurface (I : Inspector) : List Rat :=
  (I.zcorn.drop (I.nz * (8 * I.nx * I.ny) - 8 * I.nx * I.ny / 2)).take (8 * I.nx * I.ny / 2)

/-- Values read at the first positions, changed, and written at the second positions.  Models: `CornerpointChopper.hpp:151-160`, `:229-231`; copying and correcting are one step. -/
def put (old : List Rat) (l : List (Nat × Nat × (Rat → Rat))) (z : List Rat) : M (List Rat) :=
  l.foldlM (fun z p => do
    let v ← rd old p.1
    wr z p.2.1 (p.2.2 v)) z

/-- The pillars.  Models: `CornerpointChopper.hpp:142-162`.  `dz` is `zmax - zmin` of the caller. -/
def chopCoord (I : Inspector) (imin imax jmin jmax : Nat) (reset : Bool) (dz : Rat) : M (List Rat) := do
  let x0 ← rd I.coord (6 * ((I.nx + 1) * jmin + imin))
  let y0 ← rd I.coord (6 * ((I.nx + 1) * jmin + imin) + 1)
  let nx := imax - imin
  let ny := jmax - jmin
  loop (ny + 1) (fun j z => loop (nx + 1) (fun i z =>
    let pos := (I.nx + 1) * (j + jmin) + (i + imin)
    let new := (nx + 1) * j + i
    put I.coord
      [(6 * pos, 6 * new, fun v => if reset then v - x0 else v),
       (6 * pos + 1, 6 * new + 1, fun v => if reset then v - y0 else v),
       (6 * pos + 2, 6 * new + 2, fun v => if reset then 0 else v),
       (6 * pos + 3, 6 * new + 3, fun v => if reset then v - x0 else v),
       (6 * pos + 4, 6 * new + 4, fun v => if reset then v - y0 else v),
       (6 * pos + 5, 6 * new + 5, fun v => if reset then dz else v)] z) z)
    (List.replicate (6 * (nx + 1) * (ny + 1)) (10 ^ 100))

/-- The depths.  Models: `CornerpointChopper.hpp:206-234`. -/
def chopZcorn (I : Inspector) (imin imax jmin jmax kmin kmax : Nat) (zmin zmax origin : Rat) : M (List Rat) :=
  let nx := imax - imin
  let ny := jmax - jmin
  let nz := kmax - kmin
  let d1 := 2 * I.nx
  let d2 := 4 * I.nx * I.ny
  let e1 := 2 * nx
  let e2 := 4 * nx * ny
  let f := fun v : Rat => min zmax (max zmin v) - origin
  loop nz (fun k z => loop ny (fun j z => loop nx (fun i z =>
    let o := 2 * ((i + imin) + (j + jmin) * d1 + (k + kmin) * d2)
    let n := 2 * (i + j * e1 + k * e2)
    put I.zcorn
      [(o, n, f), (o + 1, n + 1, f), (o + d1, n + e1, f), (o + d1 + 1, n + e1 + 1, f),
       (o + d2, n + e2, f), (o + d2 + 1, n + e2 + 1, f), (o + d2 + d1, n + e2 + e1, f), (o + d2 + d1 + 1, n + e2 + e1 + 1, f)] z) z) z)
    (List.replicate (8 * nx * ny * nz) (10 ^ 100))

/-- The first layer with a depth greater than `zmin`.  Models: `CornerpointChopper.hpp:186-193`. -/
def findMin (I : Inspector) (zmin : Rat) : Option Nat := (List.range I.nz).find? (fun k => (layer I k).any (fun v => zmin < v))

/-- One past the last layer with a depth less than `zmax`.  Models: `CornerpointChopper.hpp:195-202`. -/
def findMax (I : Inspector) (zmax : Rat) : Option Nat :=
  ((List.range I.nz).reverse.find? (fun k => (layer I k).any (fun v => v < zmax))).map (· + 1)

/-- `chop`; the range of columns is within the grid.  Layers that are not found are used as indices -1.  With a `ZCORN` of a wrong size the constructor may already read out of bounds; here the exception of `chop` is the outcome.  Models: `CornerpointChopper.hpp:38-56`, `:130-234`. -/
def chop (I : Inspector) (imin imax jmin jmax : Nat) (zmin zmax : Rat) (reset : Bool) : M Inspector := do
  if I.coord.length ≠ 6 * (I.nx + 1) * (I.ny + 1) then .error .thrown
  else
    let coord ← chopCoord I imin imax jmin jmax reset (zmax - zmin)
    if I.zcorn.length ≠ 8 * I.nx * I.ny * I.nz then .error .thrown
    else match (firstSurface I).foldl widen none, (lastSurface I).foldl widen none with
      | some top, some bottom =>
        let zmin := max zmin top.2
        let zmax := min zmax bottom.1
        if zmax ≤ zmin then .error .thrown
        else match findMin I zmin, findMax I zmax with
          | some kmin, some kmax => do
            let zcorn ← chopZcorn I imin imax jmin jmax kmin kmax zmin zmax (if reset then zmin else 0)
            .ok ⟨coord, zcorn, true, imax - imin, jmax - jmin, kmax - kmin⟩
          | _, _ => .error .ub
      | _, _ => .error .ub

/-- `new_to_old_cell_`; its entries are written one after the other.  Models: `CornerpointChopper.hpp:211-218`. -/
def newToOld (I : Inspector) (imin imax jmin jmax kmin kmax : Nat) : List Nat :=
  (List.range (kmax - kmin)).flatMap fun k => (List.range (jmax - jmin)).flatMap fun j => (List.range (imax - imin)).map fun i =>
    I.nx * I.ny * (k + kmin) + I.nx * (j + jmin) + (i + imin)

/-- `filterField`.  Models: `CornerpointChopper.hpp:386-395`. -/
def filterField {α : Type} (field : List α) (cells : List Nat) : M (List α) :=
  cells.mapM (fun c => rd field c)

end Opm.Chopper
