import Verif.Model.TofDiscGal
import Verif.Spec.TofLimiter
import Verif.Spec.CfsTpfa
import Verif.Spec.Tof
/-!
# The equations of the discontinuous Galerkin method for the time of flight
-/

namespace Opm.TofDiscGal
open Opm
open _root_.Opm.Geometry (RowOf)
open _root_.Opm.DGBasis (Usable value count poly rel deriv)
open _root_.Opm.TofLimiter (out other)

/-- The number of coefficients of a cell. -/
def Problem.nb (P : Problem) : Nat := count P.basis.kind P.basis.degree P.basis.dim

/-- Basis function `i` of a cell at a point. -/
def phi (P : Problem) (cell i : Nat) (x : List Rat) : Rat := poly P.basis.kind P.basis.degree P.basis.dim i (rel P.basis cell x)

/-- The derivative of basis function `i` in the direction of the velocity `v`. -/
def along (P : Problem) (cell i : Nat) (x v : List Rat) : Rat := ∑ d ∈ Finset.range P.basis.dim, deriv P.basis i d (rel P.basis cell x) * v.getD d 0

/-- The function given by an array of coefficients in a cell. -/
def tof (P : Problem) (a : List Rat) (cell : Nat) (x : List Rat) : Rat := value P.basis cell (a.drop (P.nb * cell)) x

/-- Integral by quadrature. -/
def integral (ps : List (List Rat × Rat)) (g : List Rat → Rat) : Rat := (ps.map (fun p => p.2 * g p.1)).sum

/-- The data of a cell: its faces `fs`, the points and weights `cp` (of the degree of the basis) and `cq` (of twice that degree) of the cell and `fp` of the faces, and the velocities `v` at the points `cq`. -/
structure CellData (P : Problem) (cell : Nat) (fs : List Nat) (cp cq : List (List Rat × Rat)) (fp : Nat → List (List Rat × Rat)) (v : List Rat → List Rat) : Prop where
  inside : cell < P.nc
  usable : ∀ c, c < P.nc → Usable P.basis c
  faceRow : RowOf P.G.facepos P.G.cellfaces cell fs
  sides : ∀ f ∈ fs, f < P.flux.length ∧ 2 * f + 1 < P.faceCells.length
  cells : ∀ f ∈ fs, P.faceCells.getD (2 * f) 0 < P.nc ∧ P.faceCells.getD (2 * f + 1) 0 < P.nc
  area : ∀ f ∈ fs, f < P.G.faceAreas.length ∧ P.G.faceAreas.getD f 0 ≠ 0
  volume : cell < P.G.cellVolumes.length ∧ P.G.cellVolumes.getD cell 0 ≠ 0
  porevolume : cell < P.porevolume.length
  source : cell < P.source.length
  cellPts : cellPts P cell P.basis.degree.toNat = .ok cp
  cellPts2 : TofDiscGal.cellPts P cell (2 * P.basis.degree.toNat) = .ok cq
  facePts : ∀ f ∈ fs, facePts P f (2 * P.basis.degree.toNat) = .ok (fp f)
  cpLong : ∀ p ∈ cp, P.basis.dim ≤ p.1.length
  cqLong : ∀ p ∈ cq, P.basis.dim ≤ p.1.length
  fpLong : ∀ f ∈ fs, ∀ p ∈ fp f, P.basis.dim ≤ p.1.length
  vel : ∀ p ∈ cq, P.vel cell p.1 = .ok (v p.1) ∧ P.basis.dim ≤ (v p.1).length

/-- The normal velocity at a face. -/
def normalVelocity (P : Problem) (cell f : Nat) : Rat := out P.solver cell f / P.G.faceAreas.getD f 0

/-- What leaves or is transported inside the cell, tested with basis function `i`: minus the integral of `u v·∇bᵢ` over the cell, plus the integrals of `u bᵢ` times the normal velocity over the faces with
outflow, plus the integral of `u bᵢ` times the density of the sink. -/
def lhs (P : Problem) (cell : Nat) (fs : List Nat) (cq : List (List Rat × Rat)) (fp : Nat → List (List Rat × Rat)) (v : List Rat → List Rat) (u : List Rat → Rat) (i : Nat) : Rat :=
  -integral cq (fun x => u x * along P cell i x (v x))
  + (fs.map (fun f => if 0 < out P.solver cell f then normalVelocity P cell f * integral (fp f) (fun x => u x * phi P cell i x) else 0)).sum
  + (if P.source.getD cell 0 < 0 then -P.source.getD cell 0 / P.G.cellVolumes.getD cell 0 * integral cq (fun x => u x * phi P cell i x) else 0)

/-- The pore volume, and what enters from other cells: minus the integrals of the solution `a` at the other side times `bᵢ` and the normal velocity over the inner faces with inflow. -/
def rhs (P : Problem) (cell : Nat) (a : List Rat) (fs : List Nat) (cp : List (List Rat × Rat)) (fp : Nat → List (List Rat × Rat)) (i : Nat) : Rat :=
  P.porevolume.getD cell 0 / P.G.cellVolumes.getD cell 0 * integral cp (phi P cell i)
  - (fs.map (fun f => if out P.solver cell f < 0 ∧ 0 ≤ other P.solver cell f then
      normalVelocity P cell f * integral (fp f) (fun x => tof P a (other P.solver cell f).toNat x * phi P cell i x) else 0)).sum

/-- The matrix of the equations of a cell, by columns. -/
def matrix (P : Problem) (cell : Nat) (fs : List Nat) (cq : List (List Rat × Rat)) (fp : Nat → List (List Rat × Rat)) (v : List Rat → List Rat) (k : Nat) : Rat :=
  lhs P cell fs cq fp v (phi P cell (k / P.nb)) (k % P.nb)

/-- All that is required to solve: a valid mesh, the data of all cells, regular equations in every cell. -/
structure Solvable (P : Problem) (fs : Nat → List Nat) (cp cq fp : Nat → List (List Rat × Rat)) (v : Nat → List Rat → List Rat) : Prop where
  valid : P.topo.Valid
  cells : 0 < P.nc
  lenFlux : P.flux.length = P.nf
  data : ∀ c, c < P.nc → CellData P c (fs c) (cp c) (cq c) fp (v c)
  regular : ∀ c, c < P.nc → CfsTpfa.Regular P.nb (matrix P c (fs c) (cq c) fp (v c))

end Opm.TofDiscGal
