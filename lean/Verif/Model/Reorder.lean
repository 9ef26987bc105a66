import Verif.Model.Grid
import Verif.Model.Tarjan
/-!
# Model of `opm/core/transport/reorder/reordersequence.cpp` and `ReorderSolverInterface.cpp`

Fluxes are rational numbers: only their sign and negation matter here, and both are exact for the
finite `double`s they stand for (NaN is not modelled).
-/

namespace Opm.Reorder

/-- `positive_sign ? flux[f] : -flux[f]` with `positive_sign = (i == face2cell[2*f])`,
reordersequence.cpp:58–59 and 86–87. -/
def outflux (g : GridTopo) (flux : List Rat) (i f : Nat) : M Rat := do
  let c ← rd g.faceCells (2 * f)
  let q ← rd flux f
  .ok (if (i : Int) == c then q else -q)

/-- Body of the first loop nest: record the upwind cell, reordersequence.cpp:57–65. -/
def recordUpwind (g : GridTopo) (flux : List Rat) (i j : Nat) (work : List Nat) : M (List Nat) := do
  let f ← rd g.cellFaces j
  let q ← outflux g flux i f
  if q > 0 then wr work f i else .ok work

/-- State of the second loop nest. -/
structure Fill where
  p : Nat
  ia : List Nat
  ja : List Nat
  deriving DecidableEq, Repr

/-- Body of the second loop nest: append the upwind cell of an inflow face,
reordersequence.cpp:77–92. -/
def appendUpwind (g : GridTopo) (flux : List Rat) (work : List Nat) (i j : Nat) (s : Fill) : M Fill := do
  let f ← rd g.cellFaces j
  let c0 ← rd g.faceCells (2 * f)
  let c1 ← rd g.faceCells (2 * f + 1)
  if c0 == -1 || c1 == -1 then .ok s
  else
    let q ← outflux g flux i f
    if q < 0 then
      let w ← rd work f
      let ja ← wr s.ja s.p w
      .ok { s with ja, p := s.p + 1 }
    else .ok s

/-- `for (j=faceptr[i]; j<faceptr[i+1]; ++j) body(i, j)` for one cell `i`; the upper limit is
re-read by the C loop but never changes. -/
def cellLoop {σ : Type _} (g : GridTopo) (body : Nat → Nat → σ → M σ) (i : Nat) (s : σ) : M σ := do
  let a ← rd g.cellFacepos i
  let b ← rd g.cellFacepos (i + 1)
  forRange a b (body i) s

/-- One row of the second loop nest, reordersequence.cpp:72–95. -/
def fillRow (g : GridTopo) (flux : List Rat) (work : List Nat) (i : Nat) (s : Fill) : M Fill := do
  let s ← cellLoop g (appendUpwind g flux work) i s
  let ia ← wr s.ia (i + 1) s.p
  .ok { s with ia }

/-- `make_upwind_graph`, reordersequence.cpp:36–96.  Returns `ia`, `ja` and `work`. -/
def makeUpwindGraph (g : GridTopo) (flux : List Rat) (ia ja work : List Nat) :
    M (List Nat × List Nat × List Nat) := do
  let work ← loop g.nc (cellLoop g (recordUpwind g flux)) work
  let ia ← wr ia 0 0
  let s ← loop g.nc (fillRow g flux work) { p := 0, ia, ja }
  .ok (s.ia, s.ja, work)

/-- `compute_reorder_sequence_graph`, reordersequence.cpp:101–119. -/
def computeReorderSequenceGraph (fuel : Nat) (g : GridTopo) (flux : List Rat)
    (sequence components ia ja work : List Nat) : M (Tarjan.Res × List Nat × List Nat) := do
  let (ia, ja, work) ← makeUpwindGraph g flux ia ja work
  let r ← Tarjan.tarjan fuel g.nc ia ja sequence components work
  check (decide (0 < r.ncomp))
  check (decide (r.ncomp ≤ g.nc))
  .ok (r, ia, ja)

/-- `compute_sequence`, reordersequence.cpp:123–148.  `sequence`, `components` are the caller's
buffers. -/
def computeSequence (fuel : Nat) (g : GridTopo) (flux : List Rat) (sequence components : List Nat) :
    M Tarjan.Res := do
  let sz := max g.nf (3 * g.nc)
  let work := List.replicate sz 0
  let ia := List.replicate (g.nc + 1) 0
  let ja := List.replicate g.nf 0
  let (r, _, _) ← computeReorderSequenceGraph fuel g flux sequence components ia ja work
  .ok r

/-- `compute_sequence_graph`, reordersequence.cpp:152–178: as `compute_sequence`, but the graph is
returned in the caller's buffers `ia`, `ja`. -/
def computeSequenceGraph (fuel : Nat) (g : GridTopo) (flux : List Rat)
    (sequence components ia ja : List Nat) : M (Tarjan.Res × List Nat × List Nat) := do
  let sz := max g.nf (3 * g.nc)
  let work := List.replicate sz 0
  computeReorderSequenceGraph fuel g flux sequence components ia ja work

/-- A call made to the virtual solver methods of `ReorderSolverInterface`. -/
inductive Call where
  | single (cell : Nat)
  | multi (cells : List Nat)
  deriving DecidableEq, Repr

/-- Body of the solver loop, ReorderSolverInterface.cpp:57–62.  `solveMultiCell(n, p)` receives
`n` cells starting at `p`. -/
def solveComponent (r : Tarjan.Res) (k : Nat) (calls : List Call) : M (List Call) := do
  let b ← rd r.comp (k + 1)
  let a ← rd r.comp k
  let size : Int := (b : Int) - a
  if size == 1 then
    let c ← rd r.vert a
    .ok (calls ++ [.single c])
  else if 0 ≤ size && decide (a + size.toNat ≤ r.vert.length) then
    .ok (calls ++ [.multi ((r.vert.drop a).take size.toNat)])
  else .error .ub

/-- `ReorderSolverInterface::reorderAndTransport`, ReorderSolverInterface.cpp:30–64: the calls
made, in order.  `std::vector::resize` keeps old entries and appends zeros; the clock and its output
are not modelled. -/
def reorderAndTransport (fuel : Nat) (g : GridTopo) (flux : List Rat) (sequence components : List Nat) :
    M (List Call) := do
  let sequence := sequence.take g.nc ++ List.replicate (g.nc - sequence.length) 0
  let components := components.take (g.nc + 1) ++ List.replicate (g.nc + 1 - components.length) 0
  let r ← computeSequence fuel g flux sequence components
  let r := { r with comp := r.comp.take (r.ncomp + 1) }
  loop r.ncomp (solveComponent r) []

end Opm.Reorder
