import Verif.Model.Interp
/-!
# Model of `opm/core/props/rock/RockCompressibility.cpp`
-/

namespace Opm.Rock
open Opm Opm.Interp

/-- Data members.  Models: `RockCompressibility.hpp:54-57`. -/
structure RockComp where
  p : List Rat
  poromult : List Rat
  pref : Rat
  comp : Rat

/-- Constructor from parameters; the values of `rock_compressibility_pref` and `rock_compressibility` are given.  `unit::barsa` is 100000.
Models: `RockCompressibility.cpp:31-37`. -/
def RockComp.ofParam (pref comp : Rat) : RockComp := { p := [], poromult := [], pref := pref * 100000, comp := comp / 100000 }

/-- Constructor from a deck: the first table of `ROCKTAB`, if any, else the first line of `ROCK`, if any.  Models: `RockCompressibility.cpp:39-60`. -/
def RockComp.ofDeck (rocktab : Option (List Rat × List Rat)) (rock : Option (Rat × Rat)) : M RockComp :=
  match rocktab with
  | some (ps, ms) => do
    let m ← loop ps.length (fun i (l : List Rat) => do
      let v ← rd ms i
      wr l i v) (List.replicate ps.length 0)
    .ok { p := ps, poromult := m, pref := 0, comp := 0 }
  | none =>
    match rock with
    | some (pref, comp) => .ok { p := [], poromult := [], pref := pref, comp := comp }
    | none => .ok { p := [], poromult := [], pref := 0, comp := 0 }

/-- `isActive()`.  Models: `RockCompressibility.cpp:62-65`. -/
def RockComp.isActive (r : RockComp) : Bool := !r.p.isEmpty || decide (r.comp ≠ 0)

/-- `poroMult(pressure)`.  Models: `RockCompressibility.cpp:67-77`. -/
def RockComp.poroMult (r : RockComp) (pressure : Rat) : M Rat :=
  if r.p.isEmpty then
    let cpnorm := r.comp * (pressure - r.pref)
    .ok (1 + cpnorm + 1 / 2 * cpnorm * cpnorm)
  else linearInterpolation r.p r.poromult pressure

/-- `rockComp(pressure)`.  Models: `RockCompressibility.cpp:79-91`. -/
def RockComp.rockComp (r : RockComp) (pressure : Rat) : M Rat :=
  if r.p.isEmpty then .ok r.comp
  else do
    let poromult ← linearInterpolation r.p r.poromult pressure
    let dporomultdp ← linearInterpolationDerivative r.p r.poromult pressure
    fdiv dporomultdp poromult

end Opm.Rock
