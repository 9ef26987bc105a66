import Verif.Model.Pvt
/-!
# Properties of all fluids of a black-oil model

Models `opm/core/props/phaseUsageFromDeck.hpp`, `opm/core/props/pvt/BlackoilPvtProperties.cpp`, the fluid part of `opm/core/props/BlackoilPropertiesFromDeck.cpp`,
`opm/core/props/pvt/PvtPropertiesBasic.cpp`, the fluid part of `opm/core/props/BlackoilPropertiesBasic.cpp` and `opm/core/props/pvt/PvtPropertiesIncompFromDeck.cpp`.
Numbers are exact rationals.  Taking the address of the first element of an empty scratch vector (calls with no points) is not an access.
-/

namespace Opm.Blackoil
open Opm Opm.Pvt

/-- The parts of a deck which are looked at: presence of WATER, OIL and GAS, and the data of the other keywords where present. -/
structure Deck where
  water : Bool
  oil : Bool
  gas : Bool
  density : Option (List (List Rat)) := none
  pvtw : Option (List (List Rat)) := none
  pvdo : Option (List (List (List Rat))) := none
  pvto : Option (List (List (List Rat))) := none
  pvcdo : Option (List (List Rat)) := none
  pvdg : Option (List (List (List Rat))) := none
  pvtg : Option (List (List (List Rat))) := none

/-- Position of the water phase in `phase_pos`.  Models: `BlackoilPhases.hpp:32`. -/
def Aqua : Nat := 0

/-- `PhaseUsage`.  Models: `BlackoilPhases.hpp:36-41`. -/
structure PhaseUsage where
  num : Nat
  used : List Bool
  pos : List Nat
  deriving DecidableEq, Repr

/-- `phaseUsageFromDeck`.  Models: `phaseUsageFromDeck.hpp:34-67`. -/
def phaseUsage (d : Deck) : M PhaseUsage := do
  let used := [d.water, d.oil, d.gas]
  let (num, pos) ← loop 3 (fun i s => do
    let u ← rd used i
    .ok (s.1 + u.toNat, s.2 ++ [s.1])) ((0 : Nat), ([] : List Nat))
  if num < 2 ∨ num > 3 then .error .thrown
  else if !d.oil then .error .thrown
  else .ok ⟨num, used, pos⟩

/-- Data members of `BlackoilPvtProperties`; a null pointer is `none`.  Elements of `densities_` which are never set are zero here. -/
structure Props where
  usage : PhaseUsage
  props : List (Option Fluid)
  densities : List Rat
  deriving DecidableEq, Repr

/-- The parameters of `UniformMonotone.build`, used for sampled splines. -/
structure Sampling where
  sqrt : Rat → Rat
  c1 : Bool
  c2 : Bool
  fl : MonotCubic.Flags

/-- One density, if the phase is used.  Models: `BlackoilPvtProperties.cpp:55-63`. -/
def setDensity (pu : PhaseUsage) (d : List Rat) (phase ecl : Nat) (dens : List Rat) : M (List Rat) := do
  let u ← rd pu.used phase
  if u then do
    let k ← rd pu.pos phase
    let v ← rd d ecl
    wr dens k v
  else .ok dens

/-- `new SinglePvtDead` or `new SinglePvtDeadSpline`.  Models: `BlackoilPvtProperties.cpp:84-88`, `:100-104`. -/
def newDead (s : Sampling) (samples : Int) (t : List (List (List Rat))) : M Fluid :=
  if 0 < samples then do
    let d ← Dead.newSpline s.sqrt s.c1 s.c2 s.fl t samples
    .ok (.dead d)
  else do
    let d ← Dead.new t
    .ok (.dead d)

/-- Water.  Models: `BlackoilPvtProperties.cpp:72-79`; `0.5*centi*Poise` is 0.0005 (`Units.hpp`). -/
def waterFluid (d : Deck) : M Fluid :=
  match d.pvtw with
  | some t => do
    let c ← ConstCompr.new t
    .ok (.const c)
  | none => .ok (.const (ConstCompr.ofVisc (1 / 2000)))

/-- Oil; `fuel` bounds the loops of `SinglePvtLiveOil`.  Models: `BlackoilPvtProperties.cpp:83-95`. -/
def oilFluid (s : Sampling) (fuel : Nat) (samples : Int) (d : Deck) : M Fluid :=
  match d.pvdo, d.pvto, d.pvcdo with
  | some t, _, _ => newDead s samples t
  | none, some t, _ => do
    let l ← liveOil fuel t
    .ok (.oil l)
  | none, none, some t => do
    let c ← ConstCompr.new t
    .ok (.const c)
  | none, none, none => .error .thrown

/-- Gas.  Models: `BlackoilPvtProperties.cpp:99-109`. -/
def gasFluid (s : Sampling) (samples : Int) (d : Deck) : M Fluid :=
  match d.pvdg, d.pvtg with
  | some t, _ => newDead s samples t
  | none, some t => do
    let l ← liveGas t
    .ok (.gas l)
  | none, none => .error .thrown

/-- `props_[phase_usage_.phase_pos[phase]].reset(...)`, if the phase is used. -/
def setFluid (pu : PhaseUsage) (phase : Nat) (f : M Fluid) (props : List (Option Fluid)) : M (List (Option Fluid)) := do
  let u ← rd pu.used phase
  if u then do
    let v ← f
    let k ← rd pu.pos phase
    wr props k (some v)
  else .ok props

/-- Dereferencing a pointer. -/
def deref {α : Type} : Option α → M α
  | some a => .ok a
  | none => .error .ub

/-- `init`.  The phase configuration is kept in `usage`; setting it dereferences all pointers.  Models: `BlackoilPvtProperties.cpp:42-116`. -/
def Props.init (s : Sampling) (fuel : Nat) (d : Deck) (samples : Int) : M Props := do
  let pu ← phaseUsage d
  match d.density with
  | none => .error .thrown
  | some ds => do
    let r ← rd ds 0
    let dens ← setDensity pu r Aqua 1 (List.replicate 3 0)
    let dens ← setDensity pu r Vapour 2 dens
    let dens ← setDensity pu r Liquid 0 dens
    let props ← setFluid pu Aqua (waterFluid d) (List.replicate pu.num none)
    let props ← setFluid pu Liquid (oilFluid s fuel samples d) props
    let props ← setFluid pu Vapour (gasFluid s samples d) props
    let _ ← loop pu.num (fun i _ => do
      let q ← rd props i
      let _ ← deref q
      .ok ()) ()
    .ok ⟨pu, props, dens⟩

/-- The configuration given to all objects.  Models: `BlackoilPvtProperties.cpp:113-115`. -/
def Props.cfg (b : Props) : Config := ⟨b.usage.num, b.usage.pos⟩

/-- Copies the results of one phase to their places.  Models: `BlackoilPvtProperties.cpp:151-153` and the other methods. -/
def scatter (np n phase : Nat) (data : List Rat) (out : List Rat) : M (List Rat) :=
  loop n (fun i out => do
    let v ← rd data i
    wr out (np * i + phase) v) out

/-- A method with one result per phase.  The scratch vector is overwritten completely, so it starts with zeros here.
Models: `BlackoilPvtProperties.cpp:142-155`, `:157-170`, `:193-206`. -/
def Props.each (b : Props) (call : Fluid → Config → Nat → List Rat → List Rat → List Rat → M (List Rat)) (n : Nat) (p z out : List Rat) : M (List Rat) :=
  loop b.usage.num (fun phase out => do
    let q ← rd b.props phase
    let f ← deref q
    let data ← call f b.cfg n p z (List.replicate n 0)
    scatter b.usage.num n phase data out) out

/-- A method with two results per phase.  Models: `BlackoilPvtProperties.cpp:172-190`, `:208-226`. -/
def Props.each2 (b : Props) (call : Fluid → Config → Nat → List Rat → List Rat → List Rat × List Rat → M (List Rat × List Rat)) (n : Nat) (p z : List Rat) (out : List Rat × List Rat) :
    M (List Rat × List Rat) :=
  loop b.usage.num (fun phase out => do
    let q ← rd b.props phase
    let f ← deref q
    let data ← call f b.cfg n p z (List.replicate n 0, List.replicate n 0)
    let x ← scatter b.usage.num n phase data.1 out.1
    let y ← scatter b.usage.num n phase data.2 out.2
    .ok (x, y)) out

/-- `mu`. -/
def Props.mu (b : Props) := b.each Fluid.mu
/-- `B`. -/
def Props.B (b : Props) := b.each Fluid.B
/-- `R`. -/
def Props.R (b : Props) := b.each Fluid.R
/-- `dBdp`. -/
def Props.dBdp (b : Props) := b.each2 Fluid.dBdp
/-- `dRdp`. -/
def Props.dRdp (b : Props) := b.each2 Fluid.dRdp

/-! ### `BlackoilPropertiesFromDeck` -/

/-- `viscosity`; `deriv` says whether `dmudp` is not null.  Models: `BlackoilPropertiesFromDeck.cpp:156-168`. -/
def Props.viscosity (b : Props) (n : Nat) (p z mu : List Rat) (deriv : Bool) : M (List Rat) :=
  if deriv then .error .thrown else b.mu n p z mu

/-- `std::fill(m, m + k, 0.0)`. -/
def zeros (base k : Nat) (a : List Rat) : M (List Rat) := loop k (fun j a => wr a (base + j) 0) a

/-- Diagonal of a matrix.  Models: `BlackoilPropertiesFromDeck.cpp:213-215`. -/
def diagonal (np base : Nat) (B : List Rat) (at_ : Nat) (a : List Rat) : M (List Rat) :=
  loop np (fun phase a => do
    let b ← rd B (at_ + phase)
    let v ← fdiv 1 b
    wr a (base + (phase + phase * np)) v) a

/-- One entry outside of the diagonal: `m[k] = R_[j]/B_[j]`.  Models: `BlackoilPropertiesFromDeck.cpp:218-219`. -/
def quotient (B R : List Rat) (j k : Nat) (a : List Rat) : M (List Rat) := do
  let r ← rd R j
  let b ← rd B j
  let v ← fdiv r b
  wr a k v

/-- The matrix of a point.  Models: `BlackoilPropertiesFromDeck.cpp:209-221`. -/
def pointMatrix (np : Nat) (og : Bool) (o g : Nat) (B R : List Rat) (i : Nat) (a : List Rat) : M (List Rat) := do
  let base := i * np * np
  let a ← zeros base (np * np) a
  let a ← diagonal np base B (i * np) a
  if og then do
    let a ← quotient B R (i * np + g) (base + (o + g * np)) a
    quotient B R (i * np + o) (base + (g + o * np)) a
  else .ok a

/-- Applies `h col` to all entries of a matrix.  Models the double loops of `BlackoilPropertiesFromDeck.cpp:243-247`, `:259-263`. -/
def eachEntry (np base : Nat) (h : Nat → Rat → M Rat) (a : List Rat) : M (List Rat) :=
  loop np (fun col a =>
    loop np (fun row a => do
      let x ← rd a (base + (col * np + row))
      let y ← h col x
      wr a (base + (col * np + row)) y) a) a

/-- `m[k] += dR[j]`. -/
def addTo (dR : List Rat) (j k : Nat) (a : List Rat) : M (List Rat) := do
  let x ← rd a k
  let r ← rd dR j
  wr a k (x + r)

/-- Derivatives of the solution factors are added.  Models: `BlackoilPropertiesFromDeck.cpp:249-255`. -/
def addSolution (np : Nat) (og : Bool) (o g base at_ : Nat) (dR : List Rat) (a : List Rat) : M (List Rat) :=
  if og then do
    let a ← addTo dR (at_ + o) (base + (o * np + g)) a
    addTo dR (at_ + g) (base + (g * np + o)) a
  else .ok a

/-- The derivative of the matrix of a point, in place.  Models: `BlackoilPropertiesFromDeck.cpp:238-264`. -/
def pointDeriv (np : Nat) (og : Bool) (o g : Nat) (B dB dR : List Rat) (i : Nat) (a : List Rat) : M (List Rat) := do
  let base := i * np * np
  let a ← eachEntry np base (fun col x => do let d ← rd dB (i * np + col); .ok (x * -d)) a
  let a ← addSolution np og o g base (i * np) dR a
  eachEntry np base (fun col x => do let b ← rd B (i * np + col); fdiv x b) a

/-- Whether there are both oil and gas, and their positions.  Models: `BlackoilPropertiesFromDeck.cpp:200-204`. -/
def Props.oilGas (b : Props) : M (Bool × Nat × Nat) := do
  let u ← rd b.usage.used Liquid
  let v ← rd b.usage.used Vapour
  let o ← rd b.usage.pos Liquid
  let g ← rd b.usage.pos Vapour
  .ok (u && v, o, g)

/-- `matrix` without derivatives.  Models: `BlackoilPropertiesFromDeck.cpp:180-221`. -/
def Props.matrix (b : Props) (n : Nat) (p z a : List Rat) : M (List Rat) := do
  let np := b.usage.num
  let B ← b.B n p z (List.replicate (n * np) 0)
  let R ← b.R n p z (List.replicate (n * np) 0)
  let (og, o, g) ← b.oilGas
  loop n (pointMatrix np og o g B R) a

/-- `std::copy(src, src + k, dst)`. -/
def copyTo (k : Nat) (src dst : List Rat) : M (List Rat) :=
  loop k (fun j d => do
    let v ← rd src j
    wr d j v) dst

/-- `matrix` with derivatives.  Models: `BlackoilPropertiesFromDeck.cpp:180-266`. -/
def Props.matrixDeriv (b : Props) (n : Nat) (p z a da : List Rat) : M (List Rat × List Rat) := do
  let np := b.usage.num
  let (B, dB) ← b.dBdp n p z (List.replicate (n * np) 0, List.replicate (n * np) 0)
  let (R, dR) ← b.dRdp n p z (List.replicate (n * np) 0, List.replicate (n * np) 0)
  let (og, o, g) ← b.oilGas
  let a ← loop n (pointMatrix np og o g B R) a
  let da ← copyTo (n * np * np) a da
  let da ← loop n (pointDeriv np og o g B dB dR) da
  .ok (a, da)

/-- `density`, for the surface densities `sdens`.  Models: `BlackoilPropertiesFromDeck.cpp:276-291`, `BlackoilPropertiesBasic.cpp:153-168`. -/
def density (np : Nat) (sdens : List Rat) (n : Nat) (a rho : List Rat) : M (List Rat) :=
  loop n (fun i rho =>
    loop np (fun phase rho => do
      let rho ← wr rho (np * i + phase) 0
      loop np (fun comp rho => do
        let r ← rd rho (np * i + phase)
        let x ← rd a (i * np * np + np * phase + comp)
        let s ← rd sdens comp
        wr rho (np * i + phase) (r + x * s)) rho) rho) rho

/-! ### `PvtPropertiesBasic` and `BlackoilPropertiesBasic` -/

/-- Data members. -/
structure Basic where
  density : List Rat
  viscosity : List Rat
  fvf : List Rat
  deriving DecidableEq, Repr

/-- `init` with given data.  Models: `PvtPropertiesBasic.cpp:64-77`. -/
def Basic.init (num : Int) (rho visc : List Rat) : M Basic :=
  if num > 3 ∨ num < 1 then .error .thrown else .ok ⟨rho, visc, List.replicate num.toNat 1⟩

/-- `init` from parameters, where `num`, `rho` and `mu` are those of the parameters, or the defaults.  Units: `kilogram/cubic(meter)` is 1, `centi*Poise` is 0.001.
Models: `PvtPropertiesBasic.cpp:36-62`. -/
def Basic.initParam (num : Int) (rho mu : Nat → Rat) : M Basic :=
  if num > 3 ∨ num < 1 then .error .thrown
  else .ok ⟨(List.range num.toNat).map rho, (List.range num.toNat).map (fun i => 1 / 1000 * mu i), List.replicate num.toNat 1⟩

/-- One number for each phase and point.  Models: `PvtPropertiesBasic.cpp:92-104`, `:106-118`. -/
def Basic.constants (np n : Nat) (src : List Rat) (out : List Rat) : M (List Rat) :=
  loop np (fun phase out =>
    loop n (fun i out => do
      let v ← rd src phase
      wr out (np * i + phase) v) out) out

/-- `mu`. -/
def Basic.mu (b : Basic) (n : Nat) (out : List Rat) : M (List Rat) := Basic.constants b.density.length n b.viscosity out
/-- `B`. -/
def Basic.B (b : Basic) (n : Nat) (out : List Rat) : M (List Rat) := Basic.constants b.density.length n b.fvf out

/-- `matrix`; `da` is the array of derivatives, if there is one.  Models: `BlackoilPropertiesBasic.cpp:113-142`. -/
def Basic.matrix (b : Basic) (n : Nat) (a : List Rat) (da : Option (List Rat)) : M (List Rat × Option (List Rat)) := do
  let np := b.density.length
  check (decide (np ≤ 2))
  let B ← b.B 1 (List.replicate 2 0)
  let a ← loop n (fun i a => do
    let a ← zeros (i * np * np) (np * np) a
    diagonal np (i * np * np) B 0 a) a
  match da with
  | none => .ok (a, none)
  | some da => do
    let da ← loop n (fun i da => zeros (i * np * np) (np * np) da) da
    .ok (a, some da)

/-! ### `PvtPropertiesIncompFromDeck` -/

/-- Data members. -/
structure Incomp where
  surfaceDensity : List Rat
  reservoirDensity : List Rat
  viscosity : List Rat
  deriving DecidableEq, Repr

/-- Density and viscosity of one phase from PVTW or PVCDO.  Both compressibilities are read here, while the code skips the second if the first is not zero; PVTW and PVCDO always have five numbers.
Models: `PvtPropertiesIncompFromDeck.cpp:63-70`, `:77-84`. -/
def Incomp.phase (t : Option (List (List Rat))) (k : Nat) (s : Incomp) : M Incomp :=
  match t with
  | none => .error .thrown
  | some t => do
    let r ← rd t 0
    let _ ← rd r 2
    let _ ← rd r 4
    let b ← rd r 1
    let x ← rd s.reservoirDensity k
    let y ← fdiv x b
    let dens ← wr s.reservoirDensity k y
    let v ← rd r 3
    let visc ← wr s.viscosity k v
    .ok ⟨s.surfaceDensity, dens, visc⟩

/-- `init`.  Models: `PvtPropertiesIncompFromDeck.cpp:37-88`. -/
def Incomp.init (d : Deck) : M Incomp := do
  let pu ← phaseUsage d
  if d.gas || !d.water || !d.oil then .error .thrown
  else
    match d.density with
    | none => .error .thrown
    | some ds => do
      let r ← rd ds 0
      let dens ← setDensity pu r Aqua 1 (List.replicate 2 0)
      let dens ← setDensity pu r Liquid 0 dens
      let w ← rd pu.pos Aqua
      let o ← rd pu.pos Liquid
      let s ← Incomp.phase d.pvtw w ⟨dens, dens, List.replicate 2 0⟩
      Incomp.phase d.pvcdo o s

end Opm.Blackoil
