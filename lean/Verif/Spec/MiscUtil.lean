import Verif.Model.MiscUtil
import Verif.Spec.Flux
/-!
# Volumes, averages, sources and well rates: specification
-/

namespace Opm.MiscUtil
open Opm

/-- Pore volume occupied by phase `p`, summed over all cells, `np` saturations per cell. -/
def phaseVolume (np : Nat) (pv s : List Rat) (p : Nat) : Rat := ∑ c ∈ Finset.range pv.length, pv.getD c 0 * s.getD (np * c + p) 0

/-- Total pore volume. -/
def totalVolume (pv : List Rat) : Rat := ∑ c ∈ Finset.range pv.length, pv.getD c 0

/-- `x` if positive, else zero. -/
def pos (x : Rat) : Rat := if 0 < x then x else 0

/-- The mobilities in a set of cells: relative permeability over viscosity; `np` numbers per cell. -/
def mobility (P : Props) (cells : List Int) (s : List Rat) (i p : Nat) : Rat := (P.relperm s cells).getD (i * P.np + p) 0 / P.visc.getD p 0

/-- Total mobility of entry `i`. -/
def totalMobility (P : Props) (cells : List Int) (s : List Rat) (i : Nat) : Rat := ∑ p ∈ Finset.range P.np, mobility P cells s i p

/-- What a fluid must promise: positive viscosities, and relative permeabilities for all requested cells. -/
structure Props.Ok (P : Props) : Prop where
  visc : P.visc.length = P.np
  pos : ∀ p, p < P.np → 0 < P.visc.getD p 0
  dens : P.density.length = P.np
  kr : ∀ s cells, s.length = cells.length * P.np → (P.relperm s cells).length = cells.length * P.np

/-- The saturations of cell `c`. -/
def cellSat (np : Nat) (s : List Rat) (c : Nat) : List Rat := (s.drop (np * c)).take np

/-- Fraction of phase `p` in what flows out of cell `c`. -/
def outFraction (P : Props) (s : List Rat) (c p : Nat) : Rat :=
  mobility P [(c : Int)] (cellSat P.np s c) 0 p / totalMobility P [(c : Int)] (cellSat P.np s c) 0

/-- What flows into cell `c` through boundary face `f`, if `q f` flows from its first side to its second; zero if `f` is not a boundary face of the cell. -/
def boundaryInflow (G : GridTopo) (q : Nat → Rat) (c f : Nat) : Rat :=
  if G.faceCells[2 * f]? = some (c : Int) ∧ G.faceCells[2 * f + 1]? = some (-1) then -q f
  else if G.faceCells[2 * f]? = some (-1) ∧ G.faceCells[2 * f + 1]? = some (c : Int) then q f
  else 0

/-- Inflow counts with the given fraction, outflow in full. -/
def scaled (frac x : Rat) : Rat := if 0 < x then frac * x else x

/-- What a perforation of well `w` with total rate `q` (positive into the reservoir) is to contribute: the first phase for injection through injectors,
the total rate for outflow, nothing for injection through producers. -/
def perfShare (W : Wells.W) (w : Nat) (q : Rat) : Rat :=
  if 0 < q then (if W.type[w]? = some .injector then q * W.compFrac.getD (2 * w) 0 else 0) else q

/-- Wells on a mesh with `nc` cells, with two phases, and injected fractions that add up to one. -/
structure Wells2 (nc : Nat) (W : Wells.W) : Prop where
  np : W.np = 2
  pos : RowPos W.nw W.connpos
  cell : ∀ i, i < W.connpos.getD W.nw 0 → ∃ c : Nat, W.cells[i]? = some (c : Int) ∧ c < nc
  type : W.type.length = W.nw
  frac : W.compFrac.length = 2 * W.nw
  one : ∀ w, w < W.nw → W.type[w]? = some .injector → W.compFrac.getD (2 * w) 0 + W.compFrac.getD (2 * w + 1) 0 = 1

/-- Sum over all perforations in cell `c`, of all wells, of `h well perforation`. -/
def overPerfs (W : Wells.W) (c : Nat) (h : Nat → Nat → Rat) : Rat :=
  ∑ w ∈ Finset.range W.nw, ∑ i ∈ Finset.Ico (W.connpos.getD w 0) (W.connpos.getD (w + 1) 0), if W.cells[i]? = some (c : Int) then h w i else 0

/-- Well `w` is operated at total reservoir rate `q` through a single perforation in cell `c`. -/
def RateWell (W : Wells.W) (w c : Nat) (q : Rat) : Prop :=
  ∃ (ctrl : Wells.Controls) (k b : Nat), W.ctrls[w]? = some ctrl ∧ ctrl.current = (k : Int) ∧ ctrl.type[k]? = some .reservoirRate ∧
    ctrl.target[k]? = some q ∧ (∀ p, p < W.np → ctrl.distr[W.np * k + p]? = some 1) ∧ W.connpos[w]? = some b ∧ W.connpos[w + 1]? = some (b + 1) ∧
    W.cells[b]? = some (c : Int)

/-- The wells `wellsToSrc` is documented for: two phases, all operated at a total reservoir rate, one perforation each. -/
structure RateWells (nc : Nat) (W : Wells.W) : Prop where
  np : W.np = 2
  type : W.type.length = W.nw
  frac : W.compFrac.length = 2 * W.nw
  rate : ∀ w, w < W.nw → ∃ c q, c < nc ∧ RateWell W w c q

/-- The source of rate well `w`: its first-phase rate if it injects, else its total rate. -/
def sourceOf (W : Wells.W) (w : Nat) (q : Rat) : Rat := if W.type[w]? = some .injector then q * W.compFrac.getD (2 * w) 0 else q

end Opm.MiscUtil

namespace Opm.MiscUtil
open Opm

/-- `1` if face `f` points out of cell `c`, `-1` if it points into it, `0` if it is not a face of the cell. -/
def outward (G : GridTopo) (c f : Nat) : Rat :=
  (if G.faceCells[2 * f]? = some (c : Int) then 1 else 0) - (if G.faceCells[2 * f + 1]? = some (c : Int) then 1 else 0)

/-- Vector from the centre of cell `c` to the centre of face `f`, component `d`. -/
def VelGeo.arm (g : VelGeo) (c f d : Nat) : Rat := g.faceCent.getD (f * g.dim + d) 0 - g.cellCent.getD (c * g.dim + d) 0

/-- The arrays of the geometry have the right sizes, and volumes are not zero. -/
structure VelGeo.Ok (G : GridTopo) (g : VelGeo) : Prop where
  face : G.nf * g.dim ≤ g.faceCent.length
  cell : G.nc * g.dim ≤ g.cellCent.length
  vol : G.nc ≤ g.vol.length
  nonzero : ∀ c, c < G.nc → g.vol.getD c 0 ≠ 0

/-- The faces of cell `c`, with area-weighted normals `n f`, enclose a body with the volume and centres given by the geometry: the divergence theorem for linear
functions. -/
def Encloses (G : GridTopo) (g : VelGeo) (n : Nat → Nat → Rat) (c : Nat) : Prop :=
  ∀ d e, d < g.dim → e < g.dim → ∑ f ∈ Finset.range G.nf, outward G c f * g.arm c f d * n f e = if d = e then g.vol.getD c 0 else 0

end Opm.MiscUtil

namespace Opm.MiscUtil
open Opm

/-- No two wells are in the same cell. -/
def OneWellPerCell (W : Wells.W) : Prop :=
  ∀ w w' c q q', w < W.nw → w' < W.nw → RateWell W w c q → RateWell W w' c q' → w = w'

/-- Density of a mixture: densities weighted by the saturations at `base`, normalised if these do not add up to zero. -/
def mixDensity (np base : Nat) (s dens : List Rat) : Rat :=
  (∑ p ∈ Finset.range np, s.getD (base + p) 0 * dens.getD p 0) /
    (if ∑ p ∈ Finset.range np, s.getD (base + p) 0 = 0 then 1 else ∑ p ∈ Finset.range np, s.getD (base + p) 0)

/-- Wells on a mesh with `nc` cells, with a reference depth each. -/
structure WellsAt (nc : Nat) (W : Wells.W) : Prop where
  pos : RowPos W.nw W.connpos
  cell : ∀ i, i < W.connpos.getD W.nw 0 → ∃ c : Nat, W.cells[i]? = some (c : Int) ∧ c < nc
  depth : W.nw ≤ W.depthRef.length

/-- Rate of well `w`: the sum over its perforations. -/
def wellRate (W : Wells.W) (q : Nat → Rat) (w : Nat) : Rat := ∑ i ∈ Finset.Ico (W.connpos.getD w 0) (W.connpos.getD (w + 1) 0), q i

end Opm.MiscUtil
