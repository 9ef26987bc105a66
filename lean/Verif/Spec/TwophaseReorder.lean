import Verif.Spec.Tof
/-!
# Implicit two-phase transport: specification
-/

namespace Opm

/-- What flows out of cell `c` into other cells. -/
def GridTopo.interiorOut (g : GridTopo) (flux : List Rat) (c : Nat) : Rat := ∑ u ∈ Finset.range g.nc, g.flowRate flux c u

/-- What flows into cell `c` from other cells. -/
def GridTopo.interiorIn (g : GridTopo) (flux : List Rat) (c : Nat) : Rat := ∑ u ∈ Finset.range g.nc, g.flowRate flux u c

/-- The implicit upwind equation for the water saturation `s` of cell `c` after a time step `dt`, as a residual: the change of the saturation, plus (per pore volume)
the water leaving the cell to other cells and through sinks, minus the water coming from other cells at the saturations `y` and from sources, plus the saturation
times what volume the fluxes and the source fail to conserve.  `frac c s` is the share of water in what flows out of cell `c` at saturation `s`. -/
def waterResidual (g : GridTopo) (flux pv src : List Rat) (dt : Rat) (frac : Nat → Rat → Rat) (c : Nat) (s0 : Rat) (y : Nat → Rat) (s : Rat) : Rat :=
  s - s0 + dt / pv.getD c 0 *
    ((g.interiorOut flux c + max (-src.getD c 0) 0) * frac c s
      - (∑ u ∈ Finset.range g.nc, g.flowRate flux u c * frac u (y u) + max (src.getD c 0) 0)
      + s * (src.getD c 0 - (g.interiorOut flux c - g.interiorIn flux c)))

/-- `s` is a zero of `R` as far as the tolerance tells: the residual is small, or `s` is in the middle of a tiny interval in which `R` changes its sign. -/
def NearZero (tol : Rat) (R : Rat → Rat) (s0 s : Rat) : Prop :=
  |R s| < tol + 1 / 2 ^ 52 * max |R s0| 1 ∨
    ∃ a b : Rat, (0 ≤ a ∧ a ≤ 1) ∧ (0 ≤ b ∧ b ≤ 1) ∧ R a * R b < 0 ∧ |b - a| < 1 / 10 ^ 9 * (tol + 1 / 2 ^ 52) ∧ s = (a + b) / 2

/-- The share of water in the flow: the mobility of water over the total mobility. -/
def waterFraction (krw kro muw muo : Rat) : Rat := krw / muw / (krw / muw + kro / muo)

/-- The fractions of water are proper: from no water at saturation zero to only water at saturation one. -/
structure ProperFractions (frac : Nat → Rat → Rat) : Prop where
  range : ∀ c s, 0 ≤ s → s ≤ 1 → 0 ≤ frac c s ∧ frac c s ≤ 1
  zero : ∀ c, frac c 0 = 0
  one : ∀ c, frac c 1 = 1

end Opm
