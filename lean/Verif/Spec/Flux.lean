import Verif.Spec.Grid
import Mathlib.Algebra.BigOperators.Intervals
import Mathlib.Algebra.Field.Rat
/-!
# Fluxes over a mesh: specification
-/

namespace Opm

/-- What leaves cell `c` through the faces of the mesh, when `q f` flows through face `f` from its first side to its second. -/
def GridTopo.netOutflow (g : GridTopo) (q : Nat → Rat) (c : Nat) : Rat :=
  ∑ f ∈ Finset.range g.nf, ((if g.faceCells[2 * f]? = some (c : Int) then q f else 0) - (if g.faceCells[2 * f + 1]? = some (c : Int) then q f else 0))

/-- A face with cells on both sides. -/
def GridTopo.Interior (g : GridTopo) (f : Nat) : Prop := ∃ a b : Nat, g.Sides f a b

/-- Two phases flow through a face: total flux `d`, gravity difference `gf`, water mobility `w1` and oil mobility `o1` on the first side and `w2`, `o2` on the
second.  `q` is the phase flux of water obtained by phase-by-phase upstream mobility weighting: there are mobilities `m1`, `m2` such that water flows at
`m1/(m1+m2)·(d + m2·gf)`, oil at `m2/(m1+m2)·(d - m1·gf)`, and each phase uses the mobility of the side it flows from. -/
def IsUpwindFlux (d gf w1 o1 w2 o2 q : Rat) : Prop :=
  ∃ m1 m2 qo, 0 < m1 + m2 ∧ q = m1 / (m1 + m2) * (d + m2 * gf) ∧ qo = m2 / (m1 + m2) * (d - m1 * gf) ∧
    (m1 = w1 ∨ m1 = w2) ∧ (m2 = o1 ∨ m2 = o2) ∧ (0 < q → m1 = w1) ∧ (q < 0 → m1 = w2) ∧ (0 < qo → m2 = o1) ∧ (qo < 0 → m2 = o2)

end Opm
