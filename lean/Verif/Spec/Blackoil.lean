import Verif.Model.Blackoil
import Verif.Spec.Pvt
/-!
# Specification of the properties of all fluids
-/

namespace Opm.Blackoil
open Opm Opm.Pvt

/-- The object of the phase at position `c`. -/
def Props.fluid (b : Props) (c : Nat) : Option Fluid := (b.props[c]?).join

/-- An object as `init` leaves it: water (if used), oil and gas (if used) in this order, one fluid object for each, which finds the surface volumes it needs. -/
structure Props.Ok (b : Props) : Prop where
  usage : ∃ w g : Bool, b.usage = ⟨w.toNat + 1 + g.toNat, [w, true, g], [0, w.toNat, w.toNat + 1]⟩ ∧ (w || g) = true
  len : b.props.length = b.usage.num
  fluids : ∀ c, c < b.usage.num → ∃ f, b.fluid c = some f ∧ f.Reads b.cfg
  dens : b.densities.length = 3

/-- Whether there is gas. -/
def Props.hasGas (b : Props) : Bool := b.usage.used.getD 2 false
/-- Position of oil. -/
def Props.oilPos (b : Props) : Nat := b.usage.pos.getD 1 0
/-- Position of gas. -/
def Props.gasPos (b : Props) : Nat := b.usage.pos.getD 2 0

/-- `B` and `R` are the formation volume factors and solution factors of all phases of one point. -/
def Props.Values (b : Props) (z : List Rat) (p : Rat) (B R : Nat → Rat) : Prop :=
  ∀ c f, b.fluid c = some f → oneB f b.cfg z p = .ok (B c) ∧ B c ≠ 0 ∧ oneR f b.cfg z p = .ok (R c)

/-- The matrix which gives surface volumes from reservoir volumes: a phase `col` contains its own component and, if it is oil or gas, the other of the two. -/
def entry (og : Bool) (o g : Nat) (B R : Nat → Rat) (row col : Nat) : Rat :=
  if row = col then 1 / B col
  else if og = true ∧ ((row = o ∧ col = g) ∨ (row = g ∧ col = o)) then R col / B col
  else 0

/-- An entry of the matrix of one point. -/
def Props.oneA (b : Props) (z : List Rat) (row col : Nat) (p : Rat) : M Rat := do
  let a ← b.matrix 1 [p] z (List.replicate (b.usage.num * b.usage.num) 0)
  rd a (col * b.usage.num + row)

end Opm.Blackoil
