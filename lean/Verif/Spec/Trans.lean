import Verif.Spec.Grid
import Mathlib.Algebra.BigOperators.Intervals
import Mathlib.Algebra.Field.Rat
/-!
# Transmissibilities: specification
-/

namespace Opm

/-- Position `i` of `cell_faces` is where cell `c` lists face `f`. -/
def GridTopo.HalfFace (g : GridTopo) (c f i : Nat) : Prop :=
  ∃ a b, g.cellFacepos[c]? = some a ∧ g.cellFacepos[c + 1]? = some b ∧ a ≤ i ∧ i < b ∧ g.cellFaces[i]? = some f

/-- The harmonic combination of two positive numbers: half their harmonic mean. -/
def harmonic (a b : Rat) : Rat := a * b / (a + b)

/-- The two-point transmissibility with half-transmissibilities `w c i`: of face `f` with sides `a`, `b`. -/
def GridTopo.IsTrans (g : GridTopo) (w : Nat → Nat → Rat) (f : Nat) (t : Rat) : Prop :=
  (∀ c1 c2 i1 i2 : Nat, g.Sides f c1 c2 → g.HalfFace c1 f i1 → g.HalfFace c2 f i2 → t = harmonic (w c1 i1) (w c2 i2)) ∧
  (∀ c i : Nat, g.Sides f c (-1) ∨ g.Sides f (-1) c → g.HalfFace c f i → t = w c i)

/-- Scalar product of two blocks of length `d`. -/
def dotN (d : Nat) (u v : Nat → Rat) : Rat := ∑ j ∈ Finset.range d, u j * v j

end Opm
