import Verif.Core.Mem
/-! # Reading a range of a buffer (specification side) -/

namespace Opm

/-- The elements `p, …, q - 1` of a buffer; outside it the read is undefined. -/
def slice {α : Type _} (l : List α) (p q : Nat) : M (List α) :=
  if p ≤ q ∧ q ≤ l.length then .ok ((l.take q).drop p) else .error .ub

end Opm
