import Verif.Model.SatProps
/-!
# End-point scaling: what the keywords mean
-/

namespace Opm.SatFunc
open Opm

/-- The quantities of ENPTVD, in the order of its columns after the depth. -/
def enptvdOrder : List Key := [.swl, .swcr, .swu, .sowcr]

/-- The quantities of ENKRVD, in the order of its columns after the depth. -/
def enkrvdOrder : List Key := [.krw, .kro, .krwr, .krorw]

/-- The quantity `k` is number `n` (from zero) after the depth of the table `t` of depths of the deck. -/
def InTable (d : SatDeck) (k : Key) (t : DepthTable) (n : Nat) : Prop :=
  (enptvdOrder[n]? = some k ∧ d.enptvd = some t) ∨ (enkrvdOrder[n]? = some k ∧ d.enkrvd = some t)

/-- The deck has no table of depths for the quantity. -/
def NoTable (d : SatDeck) (k : Key) : Prop := (k ∈ enptvdOrder → d.enptvd = none) ∧ (k ∈ enkrvdOrder → d.enkrvd = none)

/-- The value of a quantity in the saturation functions themselves: least and largest water saturation, critical saturations of water and of oil in water, largest relative permeabilities, and those at the critical saturations of the other phase. -/
def OwnValue (f : Funcs) (aqua : Nat) (k : Key) (v : Rat) : Prop :=
  (k = .swl → f.smin[aqua]? = some v) ∧ (k = .swu → f.smax[aqua]? = some v) ∧
  (k = .swcr → ∃ e, f.ends = some e ∧ e.swcr = v) ∧ (k = .sowcr → ∃ e, f.ends = some e ∧ e.sowcr = v) ∧
  (k = .krw → ∃ e, f.ends = some e ∧ e.krwmax = v) ∧ (k = .kro → ∃ e, f.ends = some e ∧ e.kromax = v) ∧
  (k = .krwr → ∃ e, f.ends = some e ∧ e.krwr = v) ∧ (k = .krorw → ∃ e, f.ends = some e ∧ e.krorw = v)

end Opm.SatFunc
