import Verif.Spec.Flux
/-!
# Time of flight: specification
-/

namespace Opm

/-- What flows out of cell `c` through face `f` (negative for inflow). -/
def GridTopo.faceOut (g : GridTopo) (flux : List Rat) (c f : Nat) : Rat :=
  (if g.faceCells[2 * f]? = some (c : Int) then flux.getD f 0 else 0) - (if g.faceCells[2 * f + 1]? = some (c : Int) then flux.getD f 0 else 0)

/-- All that flows out of cell `c` through its faces. -/
def GridTopo.outflow (g : GridTopo) (flux : List Rat) (c : Nat) : Rat := ∑ f ∈ Finset.range g.nf, max (g.faceOut flux c f) 0

/-- What flows from cell `u` into cell `c` through face `f`. -/
def GridTopo.faceFlow (g : GridTopo) (flux : List Rat) (u c f : Nat) : Rat :=
  if g.faceCells[2 * f]? = some (u : Int) ∧ g.faceCells[2 * f + 1]? = some (c : Int) then max (flux.getD f 0) 0
  else if g.faceCells[2 * f]? = some (c : Int) ∧ g.faceCells[2 * f + 1]? = some (u : Int) then max (-flux.getD f 0) 0 else 0

/-- What flows from cell `u` into cell `c`. -/
def GridTopo.flowRate (g : GridTopo) (flux : List Rat) (u c : Nat) : Rat := ∑ f ∈ Finset.range g.nf, g.faceFlow flux u c f

/-- What leaves the cell: through faces and by production. -/
def GridTopo.throughput (g : GridTopo) (flux src : List Rat) (c : Nat) : Rat := g.outflow flux c + max (-(src.getD c 0)) 0

/-- The upwind equations for the time of flight `τ` with pore volumes `pv`: fluid entering from a neighbour brings the neighbour's time of flight, fluid entering
from sources or through the boundary has time of flight zero, and passing through the cell takes pore volume divided by throughput. -/
def TofEquations (g : GridTopo) (flux pv src : List Rat) (τ : Nat → Rat) : Prop :=
  ∀ c < g.nc, τ c * g.throughput flux src c = pv.getD c 0 + ∑ u ∈ Finset.range g.nc, g.flowRate flux u c * τ u

/-- The upwind equation in cell `c` for a concentration `x` carried along by the fluid. -/
def TracerEquation (g : GridTopo) (flux src : List Rat) (x : Nat → Rat) (c : Nat) : Prop :=
  x c * g.throughput flux src c = ∑ u ∈ Finset.range g.nc, g.flowRate flux u c * x u

/-- Fluid never comes back to a cell it has left. -/
def NoCirculation (g : GridTopo) (flux : List Rat) : Prop := ∀ c, ¬Relation.TransGen (g.FlowsTo flux) c c

/-- The sources nearly add up to zero: their sum is at most one percent of the largest of them. -/
def SourcesBalanced (nc : Nat) (src : List Rat) : Prop :=
  ∃ m ∈ src.take nc, (∀ q ∈ src.take nc, q ≤ m) ∧ (src.take nc).sum ≤ m / 100 ∧ -(src.take nc).sum ≤ m / 100

/-- Volume is conserved in every cell. -/
def VolumeConserved (g : GridTopo) (flux src : List Rat) : Prop := ∀ c < g.nc, g.netOutflow (fun f => flux.getD f 0) c = src.getD c 0

/-- Nothing flows in through the boundary. -/
def NoBoundaryInflow (g : GridTopo) (flux : List Rat) : Prop := ∀ f a b, g.Sides f a b → (a = -1 → flux.getD f 0 ≤ 0) ∧ (b = -1 → 0 ≤ flux.getD f 0)

/-- Cells with a source are fed by no other cell. -/
def SourcesUpstream (g : GridTopo) (flux src : List Rat) : Prop := ∀ u c, g.FlowsTo flux u c → src.getD c 0 ≤ 0

/-- The cells with a source, in the order of their numbers. -/
def sourceCells (nc : Nat) (src : List Rat) : List Nat := (List.range nc).filter (fun c => 0 < src.getD c 0)

/-- What is required of the data: a valid mesh, fluxes without circulation, and something leaving each cell. -/
structure TofData (g : GridTopo) (flux pv src : List Rat) : Prop where
  valid : g.Valid
  cells : 0 < g.nc
  lenFlux : flux.length = g.nf
  lenPv : g.nc ≤ pv.length
  lenSrc : g.nc ≤ src.length
  acyclic : NoCirculation g flux
  moving : ∀ c < g.nc, 0 < g.throughput flux src c

end Opm
