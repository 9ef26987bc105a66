import Verif.Model.DGBasis
import Verif.Model.Geometry
/-!
# Model of the limiter of `TofDiscGalReorder.cpp` (`opm/core/tof`)

Modelled are `applyLimiter`, `applyMinUpwindLimiter`, the two ways to apply it afterwards, `totalFlux` and `minCornerVal`.  Numbers are rational, except that a division by zero gives infinity or no number, as it
does in C++.  The arrays `tof_coeff_` and `tof` are separate arguments; where the code passes the same array for both, nothing is read after the first write, so the result is that of two equal arrays.
`basis_` is resized to the number of basis functions before, and filled by `eval` before it is read: it starts with zeros here.  Messages are not modelled.  `ASSERT` is that of a build without `NDEBUG`.
-/

namespace Opm.TofLimiter
open Opm
open _root_.Opm.DGBasis (Basis)
open _root_.Opm.Geometry (entries)

/-- The members of the grid, and of the solver, that are used. -/
structure Solver where
  nc : Nat
  facepos : List Nat
  cellfaces : List Nat
  faceCells : List Int
  nodepos : List Nat
  facenodes : List Nat
  coords : List Rat
  flux : List Rat
  basis : Basis
  threshold : Rat

/-- The outflow over a face of a cell, and the cell at the other side.  Models: `TofDiscGalReorder.cpp:424-432`, `TofDiscGalReorder.cpp:526-531`. -/
def outflow (s : Solver) (cell face : Nat) : M (Rat × Int) := do
  let a ← rd s.faceCells (2 * face)
  let q ← rd s.flux face
  if (cell : Int) = a then do
    let o ← rd s.faceCells (2 * face + 1)
    .ok (q, o)
  else .ok (-q, a)

/-- `totalFlux`.  Models: `TofDiscGalReorder.cpp:519-542`. -/
def totalFlux (s : Solver) (cell : Nat) : M Rat := do
  let fs ← entries s.facepos s.cellfaces cell
  let r ← fs.foldlM (fun (r : Rat × Rat) f => do
    let q ← outflow s cell f
    if q.1 < 0 then .ok (r.1 + q.1, r.2) else .ok (r.1, r.2 + q.1)) (0, 0)
  .ok (max (-r.1) r.2)

/-- The large number `1e100` with which the search for a minimum starts. -/
def huge : Rat := 10 ^ 100

/-- The value at a node.  Models: `TofDiscGalReorder.cpp:554-557`. -/
def nodeValue (s : Solver) (nb : Nat) (coeff : List Rat) (cell node : Nat) : M Rat := do
  let u ← DGBasis.eval s.basis cell (s.coords.drop (s.basis.dim * node)) (List.replicate nb 0)
  DGBasis.innerProduct u (coeff.drop (nb * cell))

/-- `minCornerVal`.  Models: `TofDiscGalReorder.cpp:547-561`. -/
def minCornerVal (s : Solver) (coeff : List Rat) (cell face : Nat) : M Rat := do
  let nb ← DGBasis.numBasis s.basis
  let ns ← entries s.nodepos s.facenodes face
  ns.foldlM (fun m n => do
    let v ← nodeValue s nb coeff cell n
    .ok (min m v)) huge

/-- The state of the loop over the faces: `min_upstream_tof`, `min_here_tof`, `num_upstream_faces`. -/
structure Minima where
  up : Rat
  here : Rat
  num : Nat

/-- The time of flight at the other side of an upstream face.  Models: `TofDiscGalReorder.cpp:441-448`. -/
def upstreamTof (s : Solver) (faceMin : Bool) (coeff : List Rat) (nb : Nat) (other : Int) (face : Nat) : M Rat :=
  if 0 ≤ other then
    if faceMin then minCornerVal s coeff other.toNat face else DGBasis.functionAverage s.basis (coeff.drop (nb * other.toNat))
  else .ok 0

/-- One face.  Models: `TofDiscGalReorder.cpp:423-451`. -/
def facePass (s : Solver) (faceMin : Bool) (coeff : List Rat) (nb cell : Nat) (total : Rat) (r : Minima) (face : Nat) : M Minima := do
  let q ← outflow s cell face
  let m ← minCornerVal s coeff cell face
  if q.1 < -total * s.threshold then do
    let u ← upstreamTof s faceMin coeff nb q.2 face
    .ok ⟨min r.up u, min r.here m, r.num + 1⟩
  else .ok ⟨r.up, min r.here m, r.num⟩

/-- After the loop.  Models: `TofDiscGalReorder.cpp:454-460`. -/
def settle (r : Minima) : Minima :=
  let r := if r.num = 0 then ⟨0, 0, r.num⟩ else r
  if r.up < 0 then ⟨0, r.here, r.num⟩ else r

/-- A quotient of two numbers in C++. -/
inductive Quot where
  | fin (q : Rat)
  | inf
  | negInf
  | nan
  deriving DecidableEq, Repr

/-- `a / b`. -/
def quot (a b : Rat) : Quot := if b = 0 then (if 0 < a then .inf else if a < 0 then .negInf else .nan) else .fin (a / b)

/-- `l >= 0.0`. -/
def Quot.nonneg : Quot → Bool
  | .fin q => 0 ≤ q
  | .inf => true
  | .negInf => false
  | .nan => false

/-- The slope multiplier, and the array after `addConstant`; `tof` is the array from the coefficients of the cell on.  Models: `TofDiscGalReorder.cpp:461-469`. -/
def multiplier (b : Basis) (up here c : Rat) (tof : List Rat) : M (Quot × List Rat) :=
  if c < up then do
    let t ← DGBasis.addConstant b (up - c) tof
    .ok (.fin 0, t)
  else do
    let _ ← check (quot (c - up) (c - here)).nonneg
    .ok (quot (c - up) (c - here), tof)

/-- The limiting.  Models: `TofDiscGalReorder.cpp:472-477`. -/
def limit (b : Basis) : Quot × List Rat → M (List Rat)
  | (.fin q, t) => if q < 1 then DGBasis.multiplyGradient b q t else .ok t
  | (.negInf, _) => .error .nonFinite
  | (_, t) => .ok t

/-- `applyMinUpwindLimiter`.  Models: `TofDiscGalReorder.cpp:396-478`. -/
def applyMinUpwindLimiter (s : Solver) (faceMin : Bool) (cell : Nat) (coeff tof : List Rat) : M (List Rat) :=
  if s.basis.degree ≠ 1 then .error .thrown else do
    let nb ← DGBasis.numBasis s.basis
    let total ← totalFlux s cell
    let fs ← entries s.facepos s.cellfaces cell
    let r ← fs.foldlM (facePass s faceMin coeff nb cell total) ⟨huge, huge, 0⟩
    let c ← DGBasis.functionAverage s.basis (coeff.drop (nb * cell))
    let l ← multiplier s.basis (settle r).up (settle r).here c (tof.drop (nb * cell))
    let t ← limit s.basis l
    .ok (tof.take (nb * cell) ++ t)

/-- `limiter_method_`; any other value of the enumeration makes `applyLimiter` throw.  Models: `TofDiscGalReorder.hpp`, `TofDiscGalReorder.cpp:379-391`. -/
inductive Method where
  | minUpwindFace
  | minUpwindAverage
  deriving DecidableEq, Repr

/-- `applyLimiter`.  Models: `TofDiscGalReorder.cpp:379-391`. -/
def applyLimiter (s : Solver) (m : Method) (cell : Nat) (coeff tof : List Rat) : M (List Rat) :=
  match m with
  | .minUpwindFace => applyMinUpwindLimiter s true cell coeff tof
  | .minUpwindAverage => applyMinUpwindLimiter s false cell coeff tof

/-- `applyLimiterAsPostProcess`; `seq` is the order of the cells.  Models: `TofDiscGalReorder.cpp:485-497`. -/
def postProcess (s : Solver) (m : Method) (seq : List Nat) (coeff : List Rat) : M (List Rat) := do
  let _ ← check (seq.length = s.nc)
  seq.foldlM (fun t cell => applyLimiter s m cell t t) coeff

/-- `applyLimiterAsSimultaneousPostProcess`.  Models: `TofDiscGalReorder.cpp:502-514`. -/
def simultaneous (s : Solver) (m : Method) (coeff : List Rat) : M (List Rat) := do
  let nb ← DGBasis.numBasis s.basis
  let t ← loop s.nc (fun c t => applyLimiter s m c coeff t) (coeff.take (nb * s.nc))
  .ok (t ++ coeff.drop (nb * s.nc))

end Opm.TofLimiter
