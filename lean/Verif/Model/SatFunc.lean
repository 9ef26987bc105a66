import Verif.Model.Blackoil
/-!
# Saturation functions

Models `opm/core/props/satfunc/SatFuncSimple.cpp`, `SatFuncGwseg.cpp`, `SatFuncStone2.cpp`, `SaturationPropsFromDeck_impl.hpp` and `SaturationPropsBasic.cpp`.
The classes for uniform and nonuniform tables differ only in their tables and are modelled together.  Numbers are exact rationals.
-/

namespace Opm.SatFunc
open Opm Opm.Interp Opm.Pvt Opm.Blackoil

/-- The three-phase models. -/
inductive Kind where
  | simple
  | gwseg
  | stone2
  deriving DecidableEq, Repr

/-- End points of the water-oil table. -/
structure Ends where
  krwmax : Rat
  kromax : Rat
  swcr : Rat
  krwr : Rat
  sowcr : Rat
  krorw : Rat
  deriving DecidableEq, Repr

/-- Data members.  Tables which are not set are empty; elements of `smin_` and `smax_` which are never set are zero here; `ends` is `none` where these members are never set.
Models: `SatFuncSimple.hpp:41-57`. -/
structure Funcs where
  usage : PhaseUsage
  krw : Tab := .nonuniform ⟨[], [], [], []⟩
  krow : Tab := .nonuniform ⟨[], [], [], []⟩
  pcow : Tab := .nonuniform ⟨[], [], [], []⟩
  krg : Tab := .nonuniform ⟨[], [], [], []⟩
  krog : Tab := .nonuniform ⟨[], [], [], []⟩
  pcog : Tab := .nonuniform ⟨[], [], [], []⟩
  krocw : Rat := 0
  smin : List Rat := [0, 0, 0]
  smax : List Rat := [0, 0, 0]
  ends : Option Ends := none
  deriving DecidableEq, Repr

/-! ### Initialisation -/

/-- Tables: of equal spacing with the number of samples, if given, or else with the data. -/
def mkTab (u : Option (Sampling × Int)) (xs ys : List Rat) : M Tab :=
  match u with
  | some (s, n) => do
    let t ← UniformMonotone.build s.sqrt s.c1 s.c2 s.fl xs ys n
    .ok (.uniform t)
  | none => do
    let t ← NTable.new xs ys
    .ok (.nonuniform t)

/-- `v.front()`. -/
def front (v : List Rat) : M Rat := rd v 0

/-- The first positive number of `krw`, searched upwards from `i` in `n` steps: the saturation before and `krow` there.  Models: `SatFuncSimple.cpp:68-74`. -/
def scanUp (sw krw krow : List Rat) : Nat → Nat → M (Option (Rat × Rat))
  | 0, _ => .ok none
  | n + 1, i => do
    let v ← rd krw i
    if 0 < v then do
      let a ← rd sw (i - 1)
      let b ← rd krow (i - 1)
      .ok (some (a, b))
    else scanUp sw krw krow n (i + 1)

/-- The last positive number of `krow`, searched downwards from `i`: the saturation behind and `krw` there.  Models: `SatFuncSimple.cpp:75-81`. -/
def scanDown (sw krw krow : List Rat) : Nat → M (Option (Rat × Rat))
  | 0 => .ok none
  | i + 1 => do
    let v ← rd krow i
    if 0 < v then do
      let a ← rd sw (i + 1)
      let b ← rd krw (i + 1)
      .ok (some (a, b))
    else scanDown sw krw krow i

/-- End points.  Models: `SatFuncSimple.cpp:62-81`. -/
def endsOf (sw krw krow : List Rat) (swco swmax : Rat) : M Ends := do
  let wb ← back krw
  let of ← front krow
  let up ← scanUp sw krw krow (sw.length - 1) 1
  let dn ← scanDown sw krw krow (sw.length - 1)
  .ok ⟨wb, of, (up.map (·.1)).getD swmax, (dn.map (·.2)).getD wb, (dn.map (fun x => 1 - x.1)).getD (1 - swco), (up.map (·.2)).getD of⟩

/-- The check of the simple model.  Models: `SatFuncSimple.cpp:50-52`; the second number is read here also if the first is not zero. -/
def checkEnds (k : Kind) (krw krow : List Rat) : M Unit :=
  match k with
  | .simple => do
    let a ← front krw
    let b ← back krow
    if a ≠ 0 ∨ b ≠ 0 then .error .thrown else .ok ()
  | _ => .ok ()

/-- The end points, which are set by the simple model only. -/
def setEnds (k : Kind) (sw krw krow : List Rat) (swco swmax : Rat) : M (Option Ends) :=
  match k with
  | .simple => do
    let e ← endsOf sw krw krow swco swmax
    .ok (some e)
  | _ => .ok none

/-- The water-oil part of `init`; returns the smallest and largest saturation of the table, too.
Models: `SatFuncSimple.cpp:44-82`, `:269-308`, `SatFuncGwseg.cpp:44-58`, `SatFuncStone2.cpp:44-58`. -/
def initWater (k : Kind) (u : Option (Sampling × Int)) (swof : Option (List (List (List Rat)))) (table : Nat) (f : Funcs) : M (Funcs × Rat × Rat) :=
  match swof with
  | none => .error .thrown
  | some ts => do
    let t ← rd ts table
    let sw ← rd t 0
    let krw ← rd t 1
    let krow ← rd t 2
    let pcow ← rd t 3
    let _ ← checkEnds k krw krow
    let a ← mkTab u sw krw
    let b ← mkTab u sw krow
    let c ← mkTab u sw pcow
    let krocw ← rd krow 0
    let swco ← rd sw 0
    let swmax ← back sw
    let pos ← rd f.usage.pos Aqua
    let lo ← wr f.smin pos swco
    let hi ← wr f.smax pos swmax
    let e ← setEnds k sw krw krow swco swmax
    .ok ({ f with krw := a, krow := b, pcow := c, krocw := krocw, smin := lo, smax := hi, ends := e }, swco, swmax)

/-- The gas-oil part of `init`.  Models: `SatFuncSimple.cpp:83-99`, `:309-325`, `SatFuncGwseg.cpp:59-75`, `SatFuncStone2.cpp:59-75`. -/
def initGas (u : Option (Sampling × Int)) (sgof : Option (List (List (List Rat)))) (table : Nat) (swco : Rat) (f : Funcs) : M Funcs :=
  match sgof with
  | none => .error .thrown
  | some ts => do
    let t ← rd ts table
    let sg ← rd t 0
    let krg ← rd t 1
    let krog ← rd t 2
    let pcog ← rd t 3
    let a ← mkTab u sg krg
    let b ← mkTab u sg krog
    let c ← mkTab u sg pcog
    let g0 ← rd sg 0
    let gm ← back sg
    let pos ← rd f.usage.pos Vapour
    let lo ← wr f.smin pos g0
    if 1 / 1000 < |gm + swco - 1| then .error .thrown
    else do
      let hi ← wr f.smax pos gm
      .ok { f with krg := a, krog := b, pcog := c, smin := lo, smax := hi }

/-- The water part, if there is water. -/
def maybeWater (k : Kind) (u : Option (Sampling × Int)) (swof : Option (List (List (List Rat)))) (table : Nat) (f : Funcs) : M (Funcs × Rat × Rat) := do
  let used ← rd f.usage.used Aqua
  if used then initWater k u swof table f else .ok (f, 0, 1)

/-- The gas part, if there is gas. -/
def maybeGas (u : Option (Sampling × Int)) (sgof : Option (List (List (List Rat)))) (table : Nat) (swco : Rat) (f : Funcs) : M Funcs := do
  let used ← rd f.usage.used Vapour
  if used then initGas u sgof table swco f else .ok f

/-- `init`.  Models: `SatFuncSimple.cpp:36-103`, `:261-329`, `SatFuncGwseg.cpp:36-79`, `SatFuncStone2.cpp:36-79` and the same functions of the other classes. -/
def Funcs.init (k : Kind) (u : Option (Sampling × Int)) (swof sgof : Option (List (List (List Rat)))) (table : Nat) (pu : PhaseUsage) : M Funcs := do
  let (f, swco, swmax) ← maybeWater k u swof table { usage := pu }
  let f ← maybeGas u sgof table swco f
  let pos ← rd pu.pos Liquid
  let lo ← wr f.smin pos (1 - swmax)
  let hi ← wr f.smax pos (1 - swco)
  .ok { f with smin := lo, smax := hi }

/-! ### Relative permeabilities -/

/-- `if (kr < 0.0) kr = 0.0`. -/
def clip (x : Rat) : Rat := if x < 0 then 0 else x

/-- Stone's formula for oil.  Models: `SatFuncStone2.cpp:94`. -/
def stone (krocw krw krow krg krog : Rat) : M Rat := do
  let a ← fdiv krow krocw
  let b ← fdiv krog krocw
  .ok (krocw * ((a + krw) * (b + krg) - krw - krg))

/-- Fraction of the water zone.  Models: `SatFuncGwseg.cpp:91`. -/
def waterZone (sw sg swco : Rat) : M Rat := fdiv (sw - swco) (max (sg + sw - swco) (1 / 1000000))

/-- Relative permeabilities of water, oil and gas for three phases.  Models: `SatFuncSimple.cpp:107-123`, `SatFuncGwseg.cpp:83-103`, `SatFuncStone2.cpp:83-99`. -/
def Funcs.kr3 (f : Funcs) (k : Kind) (sw sg : Rat) : M (Rat × Rat × Rat) :=
  match k with
  | .simple => do
    let krw ← f.krw.eval sw
    let krg ← f.krg.eval sg
    let krow ← f.krow.eval (sw + sg)
    .ok (krw, clip krow, krg)
  | .stone2 => do
    let krw ← f.krw.eval sw
    let krg ← f.krg.eval sg
    let krow ← f.krow.eval (sw + sg)
    let krog ← f.krog.eval sg
    let o ← stone f.krocw krw krow krg krog
    .ok (krw, clip o, krg)
  | .gwseg => do
    let pos ← rd f.usage.pos Aqua
    let swco ← rd f.smin pos
    let sw := max sw swco
    let xw ← waterZone sw sg swco
    let xg := 1 - xw
    let krw ← f.krw.eval (sg + sw)
    let krg ← f.krg.eval (sw - swco + sg)
    let krow ← f.krow.eval (sg + sw)
    let krog ← f.krog.eval (sw - swco + sg)
    .ok (xw * krw, xw * krow + xg * krog, xg * krg)

/-- The saturation at which the water-oil table is read for oil.  Models: `SatFuncSimple.cpp:130-131`, `SatFuncStone2.cpp:106`. -/
def oilArg (k : Kind) (sw so : Rat) : Rat := match k with | .simple => 1 - so | _ => sw

/-- Two phases, one of which is water.  The saturation of oil is read for all models here.  Models: `SatFuncSimple.cpp:125-134`, `SatFuncStone2.cpp:101-109`. -/
def Funcs.krWater (f : Funcs) (k : Kind) (s : List Rat) (at_ : Nat) (kr : List Rat) (to_ : Nat) : M (List Rat) := do
  let wpos ← rd f.usage.pos Aqua
  let opos ← rd f.usage.pos Liquid
  let sw ← rd s (at_ + wpos)
  let so ← rd s (at_ + opos)
  let krw ← f.krw.eval sw
  let krow ← f.krow.eval (oilArg k sw so)
  let kr ← wr kr (to_ + wpos) krw
  wr kr (to_ + opos) krow

/-- Two phases, oil and gas.  Models: `SatFuncSimple.cpp:135-143`. -/
def Funcs.krGas (f : Funcs) (s : List Rat) (at_ : Nat) (kr : List Rat) (to_ : Nat) : M (List Rat) := do
  let u ← rd f.usage.used Vapour
  check u
  let gpos ← rd f.usage.pos Vapour
  let opos ← rd f.usage.pos Liquid
  let sg ← rd s (at_ + gpos)
  let krg ← f.krg.eval sg
  let krog ← f.krog.eval sg
  let kr ← wr kr (to_ + gpos) krg
  wr kr (to_ + opos) krog

/-- Three phases, in the order of the enumeration: water 0, oil 1, gas 2. -/
def Funcs.krThree (f : Funcs) (k : Kind) (s : List Rat) (at_ : Nat) (kr : List Rat) (to_ : Nat) : M (List Rat) := do
  let sw ← rd s (at_ + Aqua)
  let sg ← rd s (at_ + Vapour)
  let (w, o, g) ← f.kr3 k sw sg
  let kr ← wr kr (to_ + Aqua) w
  let kr ← wr kr (to_ + Vapour) g
  wr kr (to_ + Liquid) o

/-- `evalKr` for the saturations at `at_` of `s`, to the elements at `to_` of `kr`.  Models: `SatFuncSimple.cpp:105-144`, `SatFuncGwseg.cpp:81-123`, `SatFuncStone2.cpp:81-119`. -/
def Funcs.evalKr (f : Funcs) (k : Kind) (s : List Rat) (at_ : Nat) (kr : List Rat) (to_ : Nat) : M (List Rat) :=
  if f.usage.num = 3 then f.krThree k s at_ kr to_
  else do
    let u ← rd f.usage.used Aqua
    if u then f.krWater k s at_ kr to_ else f.krGas s at_ kr to_

/-! ### Derivatives of relative permeabilities -/

/-- Derivatives for three phases, as the entries (row, column, value) which are written.
Models: `SatFuncSimple.cpp:152-180`, `SatFuncGwseg.cpp:131-165`, `SatFuncStone2.cpp:127-151`. -/
def Funcs.dkr3 (f : Funcs) (k : Kind) (sw sg : Rat) : M (List (Nat × Nat × Rat)) :=
  match k with
  | .simple => do
    let dw ← f.krw.derivative sw
    let dg ← f.krg.derivative sg
    let d ← f.krow.derivative (sw + sg)
    .ok [(Aqua, Aqua, dw), (Vapour, Vapour, dg), (Liquid, Liquid, -d), (Liquid, Vapour, 0)]
  | .stone2 => do
    let krw ← f.krw.eval sw
    let dw ← f.krw.derivative sw
    let krg ← f.krg.eval sg
    let dg ← f.krg.derivative sg
    let krow ← f.krow.eval (sw + sg)
    let dow ← f.krow.derivative (sw + sg)
    let krog ← f.krog.eval sg
    let dog ← f.krog.derivative sg
    let a ← fdiv krow f.krocw
    let da ← fdiv dow f.krocw
    let b ← fdiv krog f.krocw
    let db ← fdiv dog f.krocw
    .ok [(Aqua, Aqua, dw), (Vapour, Vapour, dg), (Liquid, Aqua, f.krocw * ((da + dw) * (b + krg) - dw)),
      (Liquid, Vapour, f.krocw * ((a + krw) * (db + dg) - dg) + f.krocw * ((da + krw) * (b + krg) - dg))]
  | .gwseg => do
    let pos ← rd f.usage.pos Aqua
    let swco ← rd f.smin pos
    let sw := max sw swco
    let xw ← waterZone sw sg swco
    let xg := 1 - xw
    let krw ← f.krw.eval (sg + sw)
    let krg ← f.krg.eval (sw - swco + sg)
    let krow ← f.krow.eval (sg + sw)
    let krog ← f.krog.eval (sw - swco + sg)
    let dw ← f.krw.derivative (sg + sw)
    let dg ← f.krg.derivative (sw - swco + sg)
    let dow ← f.krow.derivative (sg + sw)
    let dog ← f.krog.derivative (sw - swco + sg)
    let yg ← fdiv xg (sw - swco + sg)
    let yw ← fdiv xw (sw - swco + sg)
    .ok [(Aqua, Aqua, yg * krw + xw * dw), (Aqua, Vapour, -yw * krw + xw * dw), (Liquid, Aqua, yg * krow + xw * dow - yg * krog + xg * dog),
      (Liquid, Vapour, -yw * krow + xw * dow + yw * krog + xg * dog), (Vapour, Aqua, -yg * krg + xg * dg), (Vapour, Vapour, yw * krg + xg * dg)]

/-- Writes entries of a matrix, which are stored column by column. -/
def writeEntries (np base : Nat) (l : List (Nat × Nat × Rat)) (d : List Rat) : M (List Rat) :=
  l.foldlM (fun d e => wr d (base + (e.1 + e.2.1 * np)) e.2.2) d

/-- Entries for two phases.  Models: `SatFuncSimple.cpp:182-209`, `SatFuncStone2.cpp:153-179`. -/
def Funcs.dkr2 (f : Funcs) (k : Kind) (s : List Rat) (at_ : Nat) : M (List (Nat × Nat × Rat)) := do
  let opos ← rd f.usage.pos Liquid
  let u ← rd f.usage.used Aqua
  if u then do
    let wpos ← rd f.usage.pos Aqua
    let sw ← rd s (at_ + wpos)
    let so ← rd s (at_ + opos)
    let dw ← f.krw.derivative sw
    let d ← f.krow.derivative (oilArg k sw so)
    .ok [(wpos, wpos, dw), (opos, wpos, d)]
  else do
    let gpos ← rd f.usage.pos Vapour
    let sg ← rd s (at_ + gpos)
    let dg ← f.krg.derivative sg
    let d ← f.krog.derivative sg
    .ok [(gpos, gpos, dg), (opos, gpos, d)]

/-- Entries of the derivative. -/
def Funcs.dkr (f : Funcs) (k : Kind) (s : List Rat) (at_ : Nat) : M (List (Nat × Nat × Rat)) :=
  if f.usage.num = 3 then do
    let sw ← rd s (at_ + Aqua)
    let sg ← rd s (at_ + Vapour)
    f.dkr3 k sw sg
  else f.dkr2 k s at_

/-- `evalKrDeriv`: the matrix at `dto` of `d` is cleared, the values are computed as by `evalKr`, and the entries are written.
Models: `SatFuncSimple.cpp:147-211`, `SatFuncGwseg.cpp:126-196`, `SatFuncStone2.cpp:122-181`. -/
def Funcs.evalKrDeriv (f : Funcs) (k : Kind) (s : List Rat) (at_ : Nat) (kr : List Rat) (to_ : Nat) (d : List Rat) (dto : Nat) : M (List Rat × List Rat) := do
  let np := f.usage.num
  let d ← zeros dto (np * np) d
  let kr ← f.evalKr k s at_ kr to_
  let l ← f.dkr k s at_
  let d ← writeEntries np dto l d
  .ok (kr, d)

/-! ### Capillary pressures -/

/-- One capillary pressure and, for `deriv`, its derivative.  Models: `SatFuncSimple.cpp:218-225`, `:239-248`. -/
def Funcs.pcOne (f : Funcs) (phase : Nat) (t : Tab) (deriv : Bool) (s : List Rat) (at_ : Nat) (to_ dto : Nat) (pc : List Rat × List Rat) : M (List Rat × List Rat) := do
  let u ← rd f.usage.used phase
  if u then do
    let pos ← rd f.usage.pos phase
    let x ← rd s (at_ + pos)
    let v ← t.eval x
    let p ← wr pc.1 (to_ + pos) v
    if deriv then do
      let w ← t.derivative x
      let d ← wr pc.2 (dto + (f.usage.num * pos + pos)) w
      .ok (p, d)
    else .ok (p, pc.2)
  else .ok pc

/-- Clears the derivatives, if asked for. -/
def clearIf (deriv : Bool) (base k : Nat) (d : List Rat) : M (List Rat) := if deriv then zeros base k d else .ok d

/-- `evalPc` and `evalPcDeriv`.  Models: `SatFuncSimple.cpp:214-249`. -/
def Funcs.evalPc (f : Funcs) (deriv : Bool) (s : List Rat) (at_ : Nat) (pc : List Rat) (to_ : Nat) (d : List Rat) (dto : Nat) : M (List Rat × List Rat) := do
  let d ← clearIf deriv dto (f.usage.num * f.usage.num) d
  let opos ← rd f.usage.pos Liquid
  let pc ← wr pc (to_ + opos) 0
  let r ← f.pcOne Aqua f.pcow deriv s at_ to_ dto (pc, d)
  f.pcOne Vapour f.pcog deriv s at_ to_ dto r

end Opm.SatFunc
