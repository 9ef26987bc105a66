import Verif.Core.Mem
/-!
# Standard library algorithms used by the modelled code

`std::lower_bound` as implemented in libstdc++ (`bits/stl_algobase.h`, `__lower_bound`): halve the
remaining length.  Callers: `SparseVector.hpp:151`.
-/

namespace Opm.StdAlg
open Opm

/-- `__lower_bound` with the comparison `comp(*mid, val)` given by `p`; `first` and `len` are the
iterator offset and the remaining length. -/
def lowerBoundGo {α : Type _} (p : α → Bool) (l : List α) : Nat → Nat → Nat → M Nat
  | 0, _, _ => .error .timeout
  | fuel + 1, first, len =>
    if len > 0 then do
      let half := len / 2
      let x ← rd l (first + half)
      if p x then lowerBoundGo p l fuel (first + half + 1) (len - half - 1)
      else lowerBoundGo p l fuel first half
    else .ok first

/-- `std::lower_bound(l.begin(), l.end(), v)` with `p x` meaning `x < v`. -/
def lowerBound {α : Type _} (p : α → Bool) (l : List α) : M Nat := lowerBoundGo p l (l.length + 1) 0 l.length

end Opm.StdAlg
