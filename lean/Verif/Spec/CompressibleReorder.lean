import Verif.Spec.TwophaseReorder
/-!
# Implicit compressible two-phase transport: specification
-/

namespace Opm

/-- The implicit upwind balance of the water in cell `c` over a time step `dt`, in surface volumes: what the cell holds at saturation `s` after the step, minus what it held
before, plus what leaves to other cells and through sinks, minus what comes from other cells at the saturations `y` and from sources (which are surface volumes already).
`b c` is the surface volume of a unit of water in cell `c`, `pv0` and `pv` are the pore volumes before and after, `z0` is the surface volume of water per pore volume before,
and `frac c s` is the share of water in what flows out of cell `c` at saturation `s`. -/
def surfaceBalance (g : GridTopo) (flux pv0 pv src : List Rat) (dt : Rat) (b : Nat → Rat) (frac : Nat → Rat → Rat) (c : Nat) (z0 : Rat) (y : Nat → Rat) (s : Rat) : Rat :=
  pv.getD c 0 * b c * s - pv0.getD c 0 * z0 + dt *
    ((g.interiorOut flux c + max (-src.getD c 0) 0) * b c * frac c s
      - (∑ u ∈ Finset.range g.nc, g.flowRate flux u c * b u * frac u (y u) + max (src.getD c 0) 0))

/-- The balance relative to the surface volume that would fill the pores before the step. -/
def surfaceResidual (g : GridTopo) (flux pv0 pv src : List Rat) (dt : Rat) (b : Nat → Rat) (frac : Nat → Rat → Rat) (c : Nat) (z0 : Rat) (y : Nat → Rat) (s : Rat) : Rat :=
  surfaceBalance g flux pv0 pv src dt b frac c z0 y s / (pv0.getD c 0 * b c)

end Opm
