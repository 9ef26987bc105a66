import Verif.Model.Pvt
/-!
# Specification of fluid properties

The properties of one point are what a call with one point returns.
-/

namespace Opm.Pvt
open Opm

/-- `B` of one point with surface volumes `z`. -/
def oneB (f : Fluid) (cfg : Config) (z : List Rat) (p : Rat) : M Rat := do
  let out ← f.B cfg 1 [p] z [0]
  rd out 0

/-- Viscosity of one point. -/
def oneMu (f : Fluid) (cfg : Config) (z : List Rat) (p : Rat) : M Rat := do
  let out ← f.mu cfg 1 [p] z [0]
  rd out 0

/-- Solution factor of one point. -/
def oneR (f : Fluid) (cfg : Config) (z : List Rat) (p : Rat) : M Rat := do
  let out ← f.R cfg 1 [p] z [0]
  rd out 0

/-- `B` and its derivative. -/
def oneDB (f : Fluid) (cfg : Config) (z : List Rat) (p : Rat) : M (Rat × Rat) := do
  let out ← f.dBdp cfg 1 [p] z ([0], [0])
  let a ← rd out.1 0
  let b ← rd out.2 0
  .ok (a, b)

/-- `R` and its derivative. -/
def oneDR (f : Fluid) (cfg : Config) (z : List Rat) (p : Rat) : M (Rat × Rat) := do
  let out ← f.dRdp cfg 1 [p] z ([0], [0])
  let a ← rd out.1 0
  let b ← rd out.2 0
  .ok (a, b)

/-- The surface volumes of point `i`. -/
def point (cfg : Config) (z : List Rat) (i : Nat) : List Rat := (z.drop (cfg.numPhases * i)).take cfg.numPhases

/-- The phases a live fluid needs are among those of the configuration. -/
def Fluid.Reads (f : Fluid) (cfg : Config) : Prop :=
  match f with
  | .dead _ => True
  | .const _ => True
  | .oil _ => ∀ ph k, ph = Liquid ∨ ph = Vapour → cfg.phasePos[ph]? = some k → k < cfg.numPhases
  | .gas _ => ∀ ph k, ph = Liquid ∨ ph = Vapour → cfg.phasePos[ph]? = some k → k < cfg.numPhases

/-! ### Tables of live oil -/

/-- A table of live oil: for each record the amount of dissolved gas, and points of pressure, formation volume factor and viscosity.  The first point is the bubble point. -/
abbrev OilRecords := List (Rat × List (Rat × Rat × Rat))

/-- The numbers of a record in the order of PVTO. -/
def encode (r : Rat × List (Rat × Rat × Rat)) : List Rat := r.1 :: r.2.flatMap (fun q => [q.1, q.2.1, q.2.2])

/-- Pressure of the first point. -/
def bubble (r : Rat × List (Rat × Rat × Rat)) : Rat := (r.2.headD (0, 0, 0)).1

/-- A usable table of live oil: dissolved gas and bubble points increase, so do the pressures of each record, by more than one unit (Pascal); formation volume factors are positive;
the last record has more than one point. -/
structure OilTable (t : OilRecords) : Prop where
  two : 2 ≤ t.length
  rs : (t.map (·.1)).Pairwise (· < ·)
  bub : (t.map bubble).Pairwise (fun a b => a + 1 < b)
  ne : ∀ r ∈ t, r.2 ≠ []
  inc : ∀ r ∈ t, (r.2.map (·.1)).Pairwise (fun a b => a + 1 < b)
  pos : ∀ r ∈ t, ∀ q ∈ r.2, 0 < q.2.1
  last : ∀ r, t.getLast? = some r → 2 ≤ r.2.length

/-- In every record, oil gets denser and more viscous with pressure. -/
def OilMonotone (t : OilRecords) : Prop := ∀ r ∈ t, (r.2.map (fun q => q.2.1)).Pairwise (· ≥ ·) ∧ (r.2.map (fun q => q.2.2)).Pairwise (· ≤ ·)

/-- The constructor, given enough steps for its loops, returns `T`. -/
def Constructed (t : OilRecords) (T : Live) : Prop := ∃ N, ∀ fuel, N ≤ fuel → liveOil fuel [t.map encode] = .ok T

/-- Surface volumes of oil and gas. -/
structure Volumes (cfg : Config) (z : List Rat) (zo zg : Rat) : Prop where
  oil : ∃ k : Nat, cfg.phasePos[Liquid]? = some k ∧ z[k]? = some zo
  gas : ∃ k : Nat, cfg.phasePos[Vapour]? = some k ∧ z[k]? = some zg

/-- First formation volume factor of a record. -/
def bubbleB (r : Rat × List (Rat × Rat × Rat)) : Rat := (r.2.headD (0, 0, 0)).2.1
/-- First viscosity of a record. -/
def bubbleMu (r : Rat × List (Rat × Rat × Rat)) : Rat := (r.2.headD (0, 0, 0)).2.2

/-- Dissolved gas of saturated oil: interpolated between the bubble points of the records. -/
def satRs (t : OilRecords) (p : Rat) : M Rat := Interp.linearInterpolation (t.map bubble) (t.map (·.1)) p
/-- Viscosity of saturated oil. -/
def satMu (t : OilRecords) (p : Rat) : M Rat := Interp.linearInterpolation (t.map bubble) (t.map bubbleMu) p
/-- Formation volume factor of saturated oil: its inverse is interpolated. -/
def satB (t : OilRecords) (p : Rat) : M Rat := Interp.linearInterpolation (t.map bubble) (t.map (fun r => 1 / bubbleB r)) p >>= fdiv 1

/-! ### Tables of live gas

Records of wet gas have the same form: a pressure, and points of vaporised oil, formation volume factor and viscosity.  The first point is the saturated one. -/

/-- A usable table of wet gas with undersaturated points in every record: pressures increase, vaporised oil decreases within each record. -/
structure GasTable (t : OilRecords) : Prop where
  two : 2 ≤ t.length
  press : (t.map (·.1)).Pairwise (· < ·)
  pts : ∀ r ∈ t, 2 ≤ r.2.length
  dec : ∀ r ∈ t, (r.2.map (·.1)).Pairwise (· > ·)

/-- Vaporised oil of saturated gas: interpolated between the saturated points. -/
def satRv (t : OilRecords) (p : Rat) : M Rat := Interp.linearInterpolation (t.map (·.1)) (t.map bubble) p
/-- Formation volume factor of saturated gas. -/
def satBg (t : OilRecords) (p : Rat) : M Rat := Interp.linearInterpolation (t.map (·.1)) (t.map bubbleB) p
/-- Viscosity of saturated gas. -/
def satMug (t : OilRecords) (p : Rat) : M Rat := Interp.linearInterpolation (t.map (·.1)) (t.map bubbleMu) p
/-- Formation volume factor of a record at an amount of vaporised oil. -/
def recordB (r : Rat × List (Rat × Rat × Rat)) (rv : Rat) : M Rat := Interp.linearInterpolation (r.2.map (·.1)) (r.2.map (fun q => q.2.1)) rv
/-- Viscosity of a record at an amount of vaporised oil. -/
def recordMu (r : Rat × List (Rat × Rat × Rat)) (rv : Rat) : M Rat := Interp.linearInterpolation (r.2.map (·.1)) (r.2.map (fun q => q.2.2)) rv

end Opm.Pvt
