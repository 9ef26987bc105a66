import Verif.Model.SatProps
import Verif.Props.RockCompressibility
/-!
# Specification of saturation functions
-/

namespace Opm.SatFunc
open Opm Opm.Interp Opm.Pvt Opm.Blackoil Opm.Rock

/-- The phases of a deck with oil, with water if `w` and with gas if `g`: water comes first, gas last. -/
def usageOf (w g : Bool) : PhaseUsage := ⟨w.toNat + 1 + g.toNat, [w, true, g], [0, w.toNat, w.toNat + 1]⟩

/-- Relative permeabilities of one point. -/
def Funcs.krAt (f : Funcs) (k : Kind) (s : List Rat) : M (List Rat) := f.evalKr k s 0 (List.replicate f.usage.num 0) 0

/-- Relative permeabilities of one point and their derivatives. -/
def Funcs.dkrAt (f : Funcs) (k : Kind) (s : List Rat) : M (List Rat × List Rat) := f.evalKrDeriv k s 0 (List.replicate f.usage.num 0) 0 (List.replicate (f.usage.num * f.usage.num) 0) 0

/-- Capillary pressures of one point. -/
def Funcs.pcAt (f : Funcs) (s : List Rat) : M (List Rat) := do
  let r ← f.evalPc false s 0 (List.replicate f.usage.num 0) 0 [] 0
  .ok r.1

/-- Capillary pressures of one point and their derivatives. -/
def Funcs.dpcAt (f : Funcs) (s : List Rat) : M (List Rat × List Rat) := f.evalPc true s 0 (List.replicate f.usage.num 0) 0 (List.replicate (f.usage.num * f.usage.num) 0) 0

/-- The relative permeability of phase `i`. -/
def Funcs.krOf (f : Funcs) (k : Kind) (i : Nat) (s : List Rat) : M Rat := do
  let l ← f.krAt k s
  rd l i

/-- The capillary pressure of phase `i`. -/
def Funcs.pcOf (f : Funcs) (i : Nat) (s : List Rat) : M Rat := do
  let l ← f.pcAt s
  rd l i

/-- Saturations which move from `s` in the direction `v`. -/
def along (s v : List Rat) (t : Rat) : List Rat := List.zipWith (fun a b => a + t * b) s v

/-- Row `i` of the `n × n` matrix `m`, stored by columns, times the vector `v`. -/
def rowTimes (n : Nat) (m v : List Rat) (i : Nat) : Rat := ((List.range n).map (fun j => m.getD (i + j * n) 0 * v.getD j 0)).sum

/-- The table has a slope at `x`, and it is what the table gives as its derivative. -/
def Smooth (t : Tab) (x : Rat) : Prop := ∃ d, t.derivative x = .ok d ∧ SlopeAt t.eval x d

/-- A table of saturations and values as in a deck. -/
structure SatTable (xs ys : List Rat) : Prop where
  inc : xs.Pairwise (· < ·)
  two : 2 ≤ xs.length
  len : ys.length = xs.length

end Opm.SatFunc
