import Mathlib.Algebra.Order.Ring.Rat
import Verif.Model.Param
/-!
# Parameter requirements

Models `opm/core/utility/parameters/ParameterRequirement.hpp`.  A requirement returns the empty string if the value is accepted and an
error message otherwise.  Numbers are rational; how a number is printed is a parameter `shw`.
-/

namespace Opm.Param

/-- The requirements on numbers, closed under conjunction.  Models: the classes of `ParameterRequirement.hpp`. -/
inductive NumReq where
  | none | probability | positive | negative | nonPositive | nonNegative | nonZero
  | and (r s : NumReq)

/-- `ParameterRequirementAnd::operator()`: combination of two messages.  Models: `ParameterRequirement.hpp:188-199`. -/
def andMsg (e1 e2 : Name) : Name :=
  if e1 = [] then e2 else if e2 = [] then e1 else e1 ++ " AND ".toList ++ e2

/-- `operator()` of the requirements on numbers.
Models: `ParameterRequirement.hpp:52-57` (None), `63-74` (Probability), `81-92` (Positive), `99-110` (Negative), `117-128` (NonPositive),
`135-146` (NonNegative), `153-162` (NonZero), `183-203` (And). -/
def NumReq.run (shw : Rat → Name) : NumReq → Rat → Name
  | .none, _ => []
  | .probability, x => if x < 0 ∨ x > 1 then "The value '".toList ++ shw x ++ "' is not in the interval [0, 1].".toList else []
  | .positive, x => if x > 0 then [] else "The value '".toList ++ shw x ++ "' is not positive.".toList
  | .negative, x => if x < 0 then [] else "The value '".toList ++ shw x ++ "' is not negative.".toList
  | .nonPositive, x => if x > 0 then "The value '".toList ++ shw x ++ "' is positive.".toList else []
  | .nonNegative, x => if x < 0 then "The value '".toList ++ shw x ++ "' is negative.".toList else []
  | .nonZero, x => if x ≠ 0 then [] else "The value was zero.".toList
  | .and r s, x => andMsg (r.run shw x) (s.run shw x)

/-- The requirements on strings, closed under conjunction. -/
inductive StrReq where
  | none | nonEmpty
  | memberOf (elements : List Name)
  | and (r s : StrReq)

/-- The message of `MemberOf` for a value that is not among the elements: all but the last two elements are listed with a comma, then the
last two.  `elements_[size - 2]` and `elements_[size - 1]` exist because a list of one element is treated before.
Models: `ParameterRequirement.hpp:222-234`. -/
def memberMsg (x : Name) (el : List Name) : Name :=
  match el with
  | [] => []   -- not reached: the constructor asserts a non-empty list
  | [e] => "The string '".toList ++ x ++ "' is not '".toList ++ e ++ "'.".toList
  | _ => "The string '".toList ++ x ++ "' is not among '".toList ++ (el.take (el.length - 2)).flatMap (· ++ "', '".toList)
      ++ el.getD (el.length - 2) [] ++ "' and '".toList ++ el.getD (el.length - 1) [] ++ "'.".toList

/-- `operator()` of the requirements on strings.  `NonEmpty` is modelled as it is written: it reports an error for non-empty strings.
Models: `ParameterRequirement.hpp:168-176` (NonEmpty), `208-239` (MemberOf), `183-203` (And). -/
def StrReq.run : StrReq → Name → Name
  | .none, _ => []
  | .nonEmpty, x => if x ≠ [] then "The string was empty.".toList else []
  | .memberOf el, x => if x ∈ el then [] else memberMsg x el
  | .and r s, x => andMsg (r.run x) (s.run x)

end Opm.Param
