import Verif.Model.MonotCubic
import Verif.Model.Interp
import Mathlib.Algebra.Order.Field.Rat
/-!
# Uniform monotone tables

Models `opm/core/utility/buildUniformMonotoneTable.hpp` with `T = double`.
-/

namespace Opm.UniformMonotone
open Opm MonotCubic

/-- One sample.  `last` is the number of samples minus one.
Models: `buildUniformMonotoneTable.hpp:39-41`. -/
def sampleStep (xmin xmax last : Rat) (i : Nat) (s : Interp Rat × List Rat) : M (Interp Rat × List Rat) := do
  let w ← fdiv (i : Rat) last
  let r ← evaluate s.1 ((1 - w) * xmin + w * xmax)
  let ys ← wr s.2 i r.1
  .ok (r.2, ys)

/-- `buildUniformMonotoneTable(xv, yv, samples, table)`; `c1 c2 fl` are uninitialised members of the
interpolator.  A negative size makes the vector constructor throw.
Models: `buildUniformMonotoneTable.hpp:28-44`. -/
def build (sqrt : Rat → Rat) (c1 c2 : Bool) (fl : Flags) (xv yv : List Rat) (samples : Int) : M Interp.UTable := do
  let interp ← construct sqrt c1 c2 fl xv yv
  if samples < 0 then .error .thrown
  else do
    let xmin ← rd xv 0
    let xmax ← rd xv (xv.length - 1)
    let r ← loop samples.toNat (sampleStep xmin xmax ((samples : Rat) - 1)) (interp, List.replicate samples.toNat 0)
    Interp.UTable.new xmin xmax r.2

end Opm.UniformMonotone
