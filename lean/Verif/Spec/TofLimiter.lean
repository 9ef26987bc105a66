import Verif.Model.TofLimiter
import Verif.Spec.DGBasis
import Verif.Spec.Geometry
/-!
# What the limiter of the time of flight shall achieve
-/

namespace Opm.TofLimiter
open Opm
open _root_.Opm.Geometry (RowOf)
open _root_.Opm.DGBasis (Usable value count)

/-- The number of coefficients of a cell. -/
def Solver.nb (s : Solver) : Nat := count s.basis.kind s.basis.degree s.basis.dim

/-- The arrays of the grid, the fluxes and the coefficients `a` are complete; `faces` and `nodes` are the faces of the cells and the nodes of the faces. -/
structure Ready (s : Solver) (faces nodes : Nat → List Nat) (a : List Rat) : Prop where
  usable : ∀ c, c < s.nc → Usable s.basis c
  linear : s.basis.degree = 1
  size : s.nb * s.nc ≤ a.length
  faceRow : ∀ c, c < s.nc → RowOf s.facepos s.cellfaces c (faces c)
  nodeRow : ∀ c f, c < s.nc → f ∈ faces c → RowOf s.nodepos s.facenodes f (nodes f)
  sides : ∀ c f, c < s.nc → f ∈ faces c → f < s.flux.length ∧ 2 * f + 1 < s.faceCells.length
  cells : ∀ c f, c < s.nc → f ∈ faces c → s.faceCells.getD (2 * f) 0 < s.nc ∧ s.faceCells.getD (2 * f + 1) 0 < s.nc
  coords : ∀ c f n, c < s.nc → f ∈ faces c → n ∈ nodes f → s.basis.dim * n + s.basis.dim ≤ s.coords.length

/-- The flux out of a cell over one of its faces. -/
def out (s : Solver) (c f : Nat) : Rat := if (c : Int) = s.faceCells.getD (2 * f) 0 then s.flux.getD f 0 else -s.flux.getD f 0

/-- The cell at the other side of a face, negative at the boundary. -/
def other (s : Solver) (c f : Nat) : Int := if (c : Int) = s.faceCells.getD (2 * f) 0 then s.faceCells.getD (2 * f + 1) 0 else s.faceCells.getD (2 * f) 0

/-- The total flux of a cell: the larger one of all inflow and all outflow. -/
def total (s : Solver) (faces : Nat → List Nat) (c : Nat) : Rat := max ((faces c).map (fun f => max 0 (-out s c f))).sum ((faces c).map (fun f => max 0 (out s c f))).sum

/-- A face through which more than the given fraction of the total flux enters. -/
def Upstream (s : Solver) (faces : Nat → List Nat) (c f : Nat) : Prop := s.threshold * total s faces c < -out s c f

/-- The value of the function given by the coefficients `a` in cell `c` at a node. -/
def at' (s : Solver) (a : List Rat) (c n : Nat) : Rat := value s.basis c (a.drop (s.nb * c)) (s.coords.drop (s.basis.dim * n))

/-- The average of a cell: the value at its centroid. -/
def avg (s : Solver) (a : List Rat) (c : Nat) : Rat := value s.basis c (a.drop (s.nb * c)) (s.basis.centroids.drop (s.basis.dim * c))

/-- The values at the other side of a face which bound those in the cell: at the corners of the face, or the average; zero at the boundary. -/
def beyond (s : Solver) (nodes : Nat → List Nat) (m : Method) (a : List Rat) (c f : Nat) : List Rat :=
  if other s c f < 0 then [0] else match m with
    | .minUpwindFace => (nodes f).map (at' s a (other s c f).toNat)
    | .minUpwindAverage => [avg s a (other s c f).toNat]

/-- `B` is not above any value at the other side of an upstream face of cell `c`, nor above the large number with which the search starts. -/
def Below (s : Solver) (faces nodes : Nat → List Nat) (m : Method) (a : List Rat) (c : Nat) (B : Rat) : Prop :=
  B ≤ huge ∧ ∀ f ∈ faces c, Upstream s faces c f → ∀ v ∈ beyond s nodes m a c f, B ≤ v

/-- The array `t` has the coefficients of `a` in cell `c`. -/
def Same (s : Solver) (c : Nat) (a t : List Rat) : Prop := ∀ i, i < s.nb → t.getD (s.nb * c + i) 0 = a.getD (s.nb * c + i) 0

end Opm.TofLimiter
