import Verif.Core.Mem
import Mathlib.Algebra.Order.Field.Basic
/-!
# Monotone cubic interpolation

Models `opm/core/utility/MonotCubicInterpolator.{hpp,cpp}`, except `read` (file parsing), the constructors
that call it, and `toString`.

Numbers are elements of an arbitrary linearly ordered field `K`, so the model covers exact rational and
exact real arithmetic; infinities and NaNs, which `addPair` and `evaluate` reject, do not exist.  The
function `sqrt` is a parameter.  A `std::map<double,double>` is the list of its entries in key order; an
iterator is an index into that list.
-/

namespace Opm.MonotCubic
open Opm

variable {K : Type} [Field K] [LinearOrder K]

/-- Floating-point division; division by zero has no finite value. -/
def kdiv (a b : K) : M K := if b = 0 then .error .nonFinite else .ok (a / b)

/-! ### `std::map<double,double>` -/

/-- `m[k] = v`.  Models: the standard library's `std::map::operator[]` followed by an assignment. -/
def put (k v : K) : List (K × K) → List (K × K)
  | [] => [(k, v)]
  | p :: m => if k < p.1 then (k, v) :: p :: m else if k = p.1 then (k, v) :: m else p :: put k v m

/-- The value stored under `k`.  Models: the standard library's `std::map::find`. -/
def find (k : K) : List (K × K) → Option K
  | [] => none
  | p :: m => if k = p.1 then some p.2 else find k m

/-- `m[k]` read as a value: a missing key is inserted with value zero.
Models: the standard library's `std::map::operator[]`. -/
def fetch (m : List (K × K)) (k : K) : K × List (K × K) :=
  match find k m with
  | some v => (v, m)
  | none => (0, put k 0 m)

/-- `m.lower_bound(x)`, as an index: the number of keys less than `x`.
Models: the standard library's `std::map::lower_bound`. -/
def lowerBound (x : K) (m : List (K × K)) : Nat := (m.takeWhile (fun p => decide (p.1 < x))).length

/-! ### The class -/

/-- The flags that describe the data.  Models: `MonotCubicInterpolator.hpp:512-519`. -/
structure Flags where
  strictlyMonotone : Bool
  monotone : Bool
  strictlyDecreasing : Bool
  strictlyIncreasing : Bool
  decreasing : Bool
  increasing : Bool
  deriving DecidableEq, Repr

/-- Data members.  Models: `MonotCubicInterpolator.hpp:497-519`. -/
structure Interp (K : Type) where
  data : List (K × K)
  ddata : List (K × K)
  strictlyMonotoneCached : Bool
  monotoneCached : Bool
  flags : Flags
  deriving DecidableEq, Repr

/-- The object before any data is added.  The constructors leave the flags uninitialised: their values are
the parameters.  Models: `MonotCubicInterpolator.hpp:150` and the start of `MonotCubicInterpolator.cpp:98-110`. -/
def fresh (K : Type) (c1 c2 : Bool) (fl : Flags) : Interp K := ⟨[], [], c1, c2, fl⟩

/-- Hermite basis functions.  Models: `MonotCubicInterpolator.hpp:527-529`. -/
def H00 (t : K) : K := 2 * t * t * t - 3 * t * t + 1
/-- Models: `MonotCubicInterpolator.hpp:530-532`. -/
def H10 (t : K) : K := t * t * t - 2 * t * t + t
/-- Models: `MonotCubicInterpolator.hpp:533-535`. -/
def H01 (t : K) : K := -2 * t * t * t + 3 * t * t
/-- Models: `MonotCubicInterpolator.hpp:536-538`. -/
def H11 (t : K) : K := t * t * t - t * t

/-- `isMonotoneCoeff(alpha, beta)`.  Models: `MonotCubicInterpolator.hpp:570-576`. -/
def isMonotoneCoeff (alpha beta : K) : Bool := decide (alpha * alpha + beta * beta ≤ 9)

/-! ### `computeInternalFunctionData` -/

/-- The search for the first two different values; returns the flags and the values from `xf_iterator` on.
Models: `MonotCubicInterpolator.cpp:416-425`. -/
def skipEqual : Flags → List K → Flags × List K
  | fl, a :: b :: l =>
    if a = b then
      skipEqual { fl with strictlyMonotone := false, strictlyIncreasing := false, strictlyDecreasing := false }
        (b :: l)
    else (fl, a :: b :: l)
  | fl, l => (fl, l)

/-- The check of decreasing values.  Models: `MonotCubicInterpolator.cpp:436-447`. -/
def decLoop : Flags → List K → Flags
  | fl, a :: b :: l =>
    if a < b then { fl with monotone := false, strictlyMonotone := false, strictlyDecreasing := false }
    else if a ≤ b then
      decLoop { fl with strictlyMonotone := false, strictlyDecreasing := false } (b :: l)
    else decLoop fl (b :: l)
  | fl, _ => fl

/-- The check of increasing values.  Models: `MonotCubicInterpolator.cpp:455-466`. -/
def incLoop : Flags → List K → Flags
  | fl, a :: b :: l =>
    if a > b then { fl with monotone := false, strictlyMonotone := false, strictlyIncreasing := false }
    else if a ≥ b then
      incLoop { fl with strictlyMonotone := false, strictlyIncreasing := false } (b :: l)
    else incLoop fl (b :: l)
  | fl, _ => fl

/-- The branch on the first two different values.  Models: `MonotCubicInterpolator.cpp:428-475`. -/
def direction : Flags × List K → M Flags
  | (fl, a :: b :: l) =>
    if a > b then
      .ok (decLoop { fl with strictlyDecreasing := true, decreasing := true, strictlyIncreasing := false, increasing := false } (b :: l))
    else if a < b then
      .ok (incLoop { fl with strictlyDecreasing := false, strictlyIncreasing := true, decreasing := false, increasing := true } (b :: l))
    else .error .thrown
  | (fl, _) => .ok fl

/-- All flags of a sequence of values.  Models: `MonotCubicInterpolator.cpp:405-475`. -/
def computeFlags (fs : List K) : M Flags := direction (skipEqual ⟨true, true, true, true, true, true⟩ fs)

/-- The difference quotient of two data points. -/
def slope (p q : K × K) : M K := kdiv (q.2 - p.2) (q.1 - p.1)

/-- The derivative at an interior point.  Models: `MonotCubicInterpolator.cpp:659-668`. -/
def innerStep (data : List (K × K)) (i : Nat) (d : List (K × K)) : M (List (K × K)) := do
  let last ← rd data (i - 1)
  let pt ← rd data i
  let next ← rd data (i + 1)
  let r ← kdiv (next.2 - pt.2) (2 * (next.1 - pt.1))
  let l ← kdiv (pt.2 - last.2) (2 * (pt.1 - last.1))
  .ok (put pt.1 (r + l) d)

/-- `computeSimpleDerivatives()`: the new derivative map.  Models: `MonotCubicInterpolator.cpp:619-671`. -/
def simpleDerivatives (data : List (K × K)) : M (List (K × K)) := do
  let p ← rd data 0
  let q ← rd data 1
  let diff ← slope p q
  let d := put p.1 diff []
  let p ← rd data (data.length - 2)
  let q ← rd data (data.length - 1)
  let diff ← slope p q
  let d := put q.1 diff d
  if data.length > 2 then forRange 1 (data.length - 1) (innerStep data) d else .ok d

/-- The adjusted derivatives of one steep interval.  Models: `MonotCubicInterpolator.cpp:696-704`. -/
def adjustSteep (sqrt : K → K) (p q : K × K) (delta : K) (d : List (K × K)) : M (List (K × K)) := do
  let r := fetch d p.1
  let alpha ← kdiv r.1 delta
  let r' := fetch r.2 q.1
  let beta ← kdiv r'.1 delta
  if !isMonotoneCoeff alpha beta then do
    let tau ← kdiv 3 (sqrt (alpha * alpha + beta * beta))
    .ok (put q.1 (tau * beta * delta) (put p.1 (tau * alpha * delta) r'.2))
  else .ok r'.2

/-- One interval of the adjustment.  Models: `MonotCubicInterpolator.cpp:685-705`. -/
def adjustStep (sqrt : K → K) (data : List (K × K)) (i : Nat) (d : List (K × K)) : M (List (K × K)) := do
  let p ← rd data i
  let q ← rd data (i + 1)
  let delta ← slope p q
  if |delta| < 1 / 100000000000000 then .ok (put q.1 0 (put p.1 0 d))
  else adjustSteep sqrt p q delta d

/-- `adjustDerivativesForMonotoneness()`.  Models: `MonotCubicInterpolator.cpp:675-711`. -/
def adjustDerivatives (sqrt : K → K) (data d : List (K × K)) : M (List (K × K)) :=
  loop (data.length - 1) (adjustStep sqrt data) d

/-- The derivatives that belong to the data.  Models: `MonotCubicInterpolator.cpp:476-487`. -/
def derivatives (sqrt : K → K) (data : List (K × K)) (monotone : Bool) : M (List (K × K)) := do
  let d ← simpleDerivatives data
  if monotone then adjustDerivatives sqrt data d else .ok d

/-- `computeInternalFunctionData()`.  Models: `MonotCubicInterpolator.cpp:385-491`. -/
def compute (sqrt : K → K) (s : Interp K) : M (Interp K) :=
  if s.data.length ≤ 1 then .ok s
  else do
    let fl ← computeFlags (s.data.map (·.2))
    let d ← derivatives sqrt s.data fl.monotone
    .ok ⟨s.data, d, true, true, fl⟩

/-! ### Construction and modification -/

/-- The constructor from two vectors; `c1 c2 fl` are the uninitialised flags.
Models: `MonotCubicInterpolator.cpp:97-110`. -/
def construct (sqrt : K → K) (c1 c2 : Bool) (fl : Flags) (x f : List K) : M (Interp K) :=
  if x.length ≠ f.length then .error .thrown
  else compute sqrt { fresh K c1 c2 fl with data := (x.zip f).foldl (fun m p => put p.1 p.2 m) [] }

/-- `addPair(newx, newf)`.  Models: `MonotCubicInterpolator.cpp:167-179`. -/
def addPair (sqrt : K → K) (newx newf : K) (s : Interp K) : M (Interp K) :=
  compute sqrt { s with data := put newx newf s.data }

/-- `scaleData(factor)`; the two maps are walked in lockstep.  Models: `MonotCubicInterpolator.cpp:716-730`. -/
def scaleData (factor : K) (s : Interp K) : Interp K :=
  if s.data.length = s.ddata.length then
    { s with data := s.data.map (fun p => (p.1, p.2 * factor)), ddata := s.ddata.map (fun p => (p.1, p.2 * factor)) }
  else { s with data := s.data.map (fun p => (p.1, p.2 * factor)) }

/-- Refreshes the flags unless the given cache flag says that they can be trusted. -/
def refresh (sqrt : K → K) (cached : Bool) (s : Interp K) : M (Interp K) :=
  if cached then .ok s else compute sqrt s

/-- `isStrictlyMonotone()`.  Models: `MonotCubicInterpolator.hpp:302-312`. -/
def isStrictlyMonotone (sqrt : K → K) (s : Interp K) : M (Bool × Interp K) := do
  let s ← refresh sqrt s.strictlyMonotoneCached s
  .ok (s.flags.strictlyMonotone, s)

/-- `isMonotone()`.  Models: `MonotCubicInterpolator.hpp:319-327`. -/
def isMonotone (sqrt : K → K) (s : Interp K) : M (Bool × Interp K) := do
  let s ← refresh sqrt s.monotoneCached s
  .ok (s.flags.monotone, s)

/-- `isStrictlyIncreasing()`.  Models: `MonotCubicInterpolator.hpp:335-345`. -/
def isStrictlyIncreasing (sqrt : K → K) (s : Interp K) : M (Bool × Interp K) := do
  let s ← refresh sqrt s.strictlyMonotoneCached s
  .ok (s.flags.strictlyMonotone && s.flags.strictlyIncreasing, s)

/-- `isMonotoneIncreasing()`.  Models: `MonotCubicInterpolator.hpp:352-360`. -/
def isMonotoneIncreasing (sqrt : K → K) (s : Interp K) : M (Bool × Interp K) := do
  let s ← refresh sqrt s.monotoneCached s
  .ok (s.flags.monotone && s.flags.increasing, s)

/-- `isStrictlyDecreasing()`.  Models: `MonotCubicInterpolator.hpp:368-378`. -/
def isStrictlyDecreasing (sqrt : K → K) (s : Interp K) : M (Bool × Interp K) := do
  let s ← refresh sqrt s.strictlyMonotoneCached s
  .ok (s.flags.strictlyMonotone && s.flags.strictlyDecreasing, s)

/-- `isMonotoneDecreasing()`.  Models: `MonotCubicInterpolator.hpp:385-393`. -/
def isMonotoneDecreasing (sqrt : K → K) (s : Interp K) : M (Bool × Interp K) := do
  let s ← refresh sqrt s.monotoneCached s
  .ok (s.flags.monotone && s.flags.decreasing, s)

/-- The rest of the right end of `chopFlatEndpoints`.  Erasing a point is undefined behaviour, because the
invalidated iterator is decremented afterwards.  Models: `MonotCubicInterpolator.cpp:536-549`. -/
def chopRight (sqrt : K → K) (epsilon : K) (s : Interp K) : M (Interp K) := do
  let y ← rd s.data (s.data.length - 1)
  let z ← rd s.data (s.data.length - 2)
  if s.data.length - 2 ≠ 0 ∧ |y.2 - z.2| < epsilon then .error .ub
  else compute sqrt { s with strictlyMonotoneCached := false, monotoneCached := false }

/-- `chopFlatEndpoints(epsilon)`.  Both loops erase the element their iterator points to and then increment
(decrement) this iterator, which `erase` has invalidated: undefined behaviour as soon as there is anything
to erase.  Models: `MonotCubicInterpolator.cpp:510-550`. -/
def chopFlatEndpoints (sqrt : K → K) (epsilon : K) (s : Interp K) : M (Interp K) :=
  if s.data.length < 3 then .ok s
  else do
    let a ← rd s.data 0
    let b ← rd s.data 1
    if |a.2 - b.2| < epsilon then .error .ub else chopRight sqrt epsilon s

/-- The loop of `shrinkFlatAreas`: `cur` is the point at `xf_iterator`, the list starts at
`xf_next_iterator`.  Models: `MonotCubicInterpolator.cpp:602-614`. -/
def shrinkGo (epsilon : K) (cur : K × K) : List (K × K) → List (K × K)
  | [] => []
  | n :: l => if |cur.2 - n.2| < epsilon then shrinkGo epsilon cur l else n :: shrinkGo epsilon n l

/-- The data after `shrinkFlatAreas` has removed points.  Models: `MonotCubicInterpolator.cpp:599-614`. -/
def shrinkList (epsilon : K) : List (K × K) → List (K × K)
  | [] => []
  | p :: l => p :: shrinkGo epsilon p l

/-- `shrinkFlatAreas(epsilon)` after the test for strict monotonicity.
Models: `MonotCubicInterpolator.cpp:585-616`. -/
def shrinkMonotone (sqrt : K → K) (epsilon : K) (s : Interp K) : M (Interp K) := do
  let r ← isMonotone sqrt s
  if !r.1 then .ok r.2
  else .ok { r.2 with strictlyMonotoneCached := false, monotoneCached := false, data := shrinkList epsilon r.2.data }

/-- `shrinkFlatAreas(epsilon)`.  Models: `MonotCubicInterpolator.cpp:568-616`. -/
def shrinkFlatAreas (sqrt : K → K) (epsilon : K) (s : Interp K) : M (Interp K) :=
  if s.data.length < 2 then .ok s
  else do
    let r ← isStrictlyMonotone sqrt s
    if r.1 then .ok r.2 else shrinkMonotone sqrt epsilon r.2

/-! ### Queries -/

/-- Linear interpolation between two data points.  Models: `MonotCubicInterpolator.cpp:216-221`. -/
def linear (p q : K × K) (x : K) : M K := do
  let m ← slope p q
  .ok (p.2 + m * (x - p.1))

/-- The cubic Hermite polynomial between two data points.  Models: `MonotCubicInterpolator.cpp:222-231`. -/
def hermite (s : Interp K) (p q : K × K) (x : K) : M (K × Interp K) := do
  let t ← kdiv (x - p.1) (q.1 - p.1)
  let h := q.1 - p.1
  let d1 := fetch s.ddata p.1
  let d2 := fetch d1.2 q.1
  .ok (p.2 * H00 t + d1.1 * H10 t * h + q.2 * H01 t + d2.1 * H11 t * h, { s with ddata := d2.2 })

/-- `evaluate` between two data points.  Models: `MonotCubicInterpolator.cpp:209-231`. -/
def evaluateInside (s : Interp K) (i : Nat) (x : K) : M (K × Interp K) := do
  let xf2 ← rd s.data i
  let xf1 ← rd s.data (i - 1)
  if s.ddata.length ≠ s.data.length then do
    let v ← linear xf1 xf2 x
    .ok (v, s)
  else hermite s xf1 xf2 x

/-- `evaluate(x)`: the value, and the object (whose derivative map is `mutable`).
Models: `MonotCubicInterpolator.cpp:182-233`. -/
def evaluate (s : Interp K) (x : K) : M (K × Interp K) :=
  if lowerBound x s.data = 0 then do
    let p ← rd s.data 0
    .ok (p.2, s)
  else if lowerBound x s.data = s.data.length then do
    let p ← rd s.data (s.data.length - 1)
    .ok (p.2, s)
  else evaluateInside s (lowerBound x s.data) x

/-- `get_xVector()`.  Models: `MonotCubicInterpolator.cpp:244-256`. -/
def xVector (s : Interp K) : List K := s.data.map (·.1)

/-- `get_fVector()`.  Models: `MonotCubicInterpolator.cpp:259-272`. -/
def fVector (s : Interp K) : List K := s.data.map (·.2)

/-- `getSize()`.  Models: `MonotCubicInterpolator.hpp:436-438`. -/
def getSize (s : Interp K) : Nat := s.data.length

/-- `getMinimumX()`.  Models: `MonotCubicInterpolator.hpp:236-239`. -/
def getMinimumX (s : Interp K) : M (K × K) := rd s.data 0

/-- `getMaximumX()`.  Models: `MonotCubicInterpolator.hpp:247-250`. -/
def getMaximumX (s : Interp K) : M (K × K) := rd s.data (s.data.length - 1)

/-- `getMaximumF()`.  Models: `MonotCubicInterpolator.cpp:338-358`. -/
def getMaximumF (s : Interp K) : M (K × K) :=
  if s.data.length ≤ 1 then .error .thrown
  else if s.flags.strictlyIncreasing then rd s.data (s.data.length - 1)
  else if s.flags.strictlyDecreasing then rd s.data 0
  else do
    let m ← rd s.data (s.data.length - 1)
    .ok (s.data.foldl (fun m p => if p.2 > m.2 then p else m) m)

/-- `getMinimumF()`.  Models: `MonotCubicInterpolator.cpp:361-382`. -/
def getMinimumF (s : Interp K) : M (K × K) :=
  if s.data.length ≤ 1 then .error .thrown
  else if s.flags.strictlyIncreasing then rd s.data 0
  else if s.flags.strictlyDecreasing then rd s.data (s.data.length - 1)
  else do
    let m ← rd s.data (s.data.length - 1)
    .ok (s.data.foldl (fun m p => if p.2 < m.2 then p else m) m)

/-- The search for the largest jump: index of its left end, and its size.
Models: `MonotCubicInterpolator.cpp:314-329`. -/
def largestJump (data : List (K × K)) : M (Nat × K) :=
  loop (data.length - 1) (fun i r => do
    let p ← rd data i
    let q ← rd data (i + 1)
    .ok (if |q.2 - p.2| > r.2 then (i, |q.2 - p.2|) else r)) (0, 0)

/-- `getMissingX()`.  In `((*it).first + (*(++it)).first)/2` the order in which the two operands are
evaluated is unspecified: `leftFirst` says which one the compiler has chosen.
Models: `MonotCubicInterpolator.cpp:304-334`. -/
def getMissingX (leftFirst : Bool) (s : Interp K) : M (K × K) :=
  if s.data.length < 2 then .error .thrown
  else do
    let r ← largestJump s.data
    let p ← rd s.data (if leftFirst then r.1 else r.1 + 1)
    let q ← rd s.data (r.1 + 1)
    .ok ((p.1 + q.1) / 2, r.2)

/-! ### Histories -/

/-- The calls that may change the object (`evaluate` and the monotonicity queries included, since they work
on `mutable` members).  The queries `getMaximumF`, `getMissingX`, … do not write. -/
inductive Op (K : Type) where
  | addPair (x f : K)
  | scaleData (factor : K)
  | chopFlatEndpoints (epsilon : K)
  | shrinkFlatAreas (epsilon : K)
  | isStrictlyMonotone
  | isMonotone
  | evaluate (x : K)
  deriving Repr

/-- One call. -/
def step (sqrt : K → K) (s : Interp K) : Op K → M (Interp K)
  | .addPair x f => addPair sqrt x f s
  | .scaleData c => .ok (scaleData c s)
  | .chopFlatEndpoints e => chopFlatEndpoints sqrt e s
  | .shrinkFlatAreas e => shrinkFlatAreas sqrt e s
  | .isStrictlyMonotone => do
    let r ← isStrictlyMonotone sqrt s
    .ok r.2
  | .isMonotone => do
    let r ← isMonotone sqrt s
    .ok r.2
  | .evaluate x => do
    let r ← evaluate s x
    .ok r.2

/-- A sequence of calls. -/
def run (sqrt : K → K) (ops : List (Op K)) (s : Interp K) : M (Interp K) := ops.foldlM (step sqrt) s

end Opm.MonotCubic
