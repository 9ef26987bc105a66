import Verif.Model.MiscUtil
/-!
# Utilities for black-oil problems

Models `opm/core/utility/miscUtilitiesBlackoil.cpp` (`computeSurfacevol` is in `Model/CompressibleReorder.lean`).  The properties are functions given by the caller, which
get what the implementations of `BlackoilPropertiesInterface` may read: the saturations of a point and its cell for relative permeabilities, the pressure and the surface
volumes of a point and its cell for viscosities and matrices.
-/

namespace Opm.MiscBlackoil
open Opm

/-- `BlackoilPropertiesInterface`, for one point at a time. -/
structure Props where
  np : Nat
  nc : Nat
  relperm : List Rat → Int → List Rat
  viscosity : Rat → List Rat → Int → List Rat
  matrix : Rat → List Rat → Int → List Rat

/-- The `n` numbers a pointer `&l[a]` gives access to. -/
def sub (l : List Rat) (a n : Nat) : M (List Rat) := if a + n ≤ l.length then .ok ((l.drop a).take n) else .error .ub

/-- A call for `n` points: the results one after the other. -/
def batch (n : Nat) (f : Nat → M (List Rat)) : M (List Rat) :=
  loop n (fun i out => do
    let v ← f i
    .ok (out ++ v)) []

/-- `computePhaseMobilities`.  Models: `miscUtilitiesBlackoil.cpp:192-217`. -/
def computePhaseMobilities (P : Props) (cells : List Int) (p z s : List Rat) : M (List Rat) := do
  check (decide (s.length = P.nc * P.np))
  let mu ← batch P.nc (fun i => do
    let c ← rd cells i
    let x ← rd p i
    let y ← sub z (P.np * i) P.np
    .ok (P.viscosity x y c))
  let kr ← batch P.nc (fun i => do
    let c ← rd cells i
    let y ← sub s (P.np * i) P.np
    .ok (P.relperm y c))
  loop kr.length (fun k m => do
    let x ← rd m k
    let y ← rd mu k
    let v ← fdiv x y
    wr m k v) kr

/-- `computeTotalMobility`.  Models: `miscUtilitiesBlackoil.cpp:120-142`. -/
def computeTotalMobility (P : Props) (cells : List Int) (p z s : List Rat) : M (List Rat) := do
  let pm ← computePhaseMobilities P cells p z s
  loop cells.length (fun c t =>
    loop P.np (fun ph t => do
      let m ← rd pm (c * P.np + ph)
      addAt t c m) t) (List.replicate cells.length 0)

/-- One cell of `computeFractionalFlow`.  Models: `miscUtilitiesBlackoil.cpp:238-246`. -/
def normalise (np i : Nat) (ff : List Rat) : M (List Rat) := do
  let sum ← loop np (fun ph sum => do
    let m ← rd ff (i * np + ph)
    .ok (sum + m)) 0
  loop np (fun ph ff => do
    let m ← rd ff (i * np + ph)
    let v ← fdiv m sum
    wr ff (i * np + ph) v) ff

/-- `computeFractionalFlow`.  Models: `miscUtilitiesBlackoil.cpp:226-247`. -/
def computeFractionalFlow (P : Props) (cells : List Int) (p z s : List Rat) : M (List Rat) := do
  let pm ← computePhaseMobilities P cells p z s
  loop cells.length (normalise P.np) pm

/-- The mobilities and their sum.  Models: `miscUtilitiesBlackoil.cpp:91-95`. -/
def mobilities (np : Nat) (kr mu : List Rat) : M (List Rat × Rat) :=
  loop np (fun p t => do
    let x ← rd t.1 p
    let y ← rd mu p
    let v ← fdiv x y
    let m ← wr t.1 p v
    .ok (m, t.2 + v)) (kr, 0)

/-- `prod_surfvol`.  Models: `miscUtilitiesBlackoil.cpp:96-102`. -/
def surfaceVolumes (np : Nat) (mob : List Rat) (totmob flux : Rat) (A : List Rat) : M (List Rat) :=
  loop np (fun p out => do
    let m ← rd mob p
    let y ← fdiv m totmob
    loop np (fun q out => do
      let a ← rd A (q + np * p)
      addAt out q (y * flux * a)) out) (List.replicate np 0)

/-- One cell of `computeInjectedProduced`.  Models: `miscUtilitiesBlackoil.cpp:79-108`. -/
def cellVolumes (P : Props) (press s z src : List Rat) (dt : Rat) (c : Nat) (r : List Rat × List Rat) : M (List Rat × List Rat) := do
  let q ← rd src c
  if q > 0 then do
    let inj ← addAt r.1 0 (q * dt)
    .ok (inj, r.2)
  else if q < 0 then do
    let flux := -q * dt
    let y ← sub s (P.np * c) P.np
    let x ← rd press c
    let w ← sub z (P.np * c) P.np
    let m ← mobilities P.np (P.relperm y c) (P.viscosity x w c)
    let out ← surfaceVolumes P.np m.1 m.2 flux (P.matrix x w c)
    let prod ← loop P.np (fun p prod => do
      let v ← rd out p
      addAt prod p v) r.2
    .ok (r.1, prod)
  else .ok r

/-- `computeInjectedProduced`.  Models: `miscUtilitiesBlackoil.cpp:55-110`. -/
def computeInjectedProduced (P : Props) (press s z src : List Rat) (dt : Rat) (injected produced : List Rat) : M (List Rat × List Rat) := do
  if P.nc ≠ src.length then .error .thrown
  else if s.length ≠ src.length * P.np then .error .thrown
  else do
    let inj ← MiscUtil.fillZero P.np injected
    let prod ← MiscUtil.fillZero P.np produced
    loop src.length (cellVolumes P press s z src dt) (inj, prod)

/-- The contribution of a perforation.  Models: `miscUtilitiesBlackoil.cpp:312-328`. -/
def perfSource (P : Props) (W : Wells.W) (press : List Rat) (w perf : Nat) (cell : Int) (rate : Rat) : M Rat :=
  if rate > 0 then do
    let t ← rd W.type w
    if t ≠ .injector then .ok 0
    else do
      let f ← sub W.compFrac (W.np * w) W.np
      let c0 ← rd f 0
      let c1 ← rd f 1
      check (decide (c0 + c1 - 1 < 1 / 1000000 ∧ -(c0 + c1 - 1) < 1 / 1000000))
      let x ← rd press perf
      let a ← rd (P.matrix x f cell) 0
      .ok (rate * c0 * a)
  else .ok rate

/-- `computeTransportSource`.  Models: `miscUtilitiesBlackoil.cpp:291-332`. -/
def computeTransportSource (P : Props) (wells : Option Wells.W) (press rates : List Rat) : M (List Rat) :=
  match wells with
  | none => .ok (List.replicate P.nc 0)
  | some W =>
    if W.np ≠ 2 then .error .thrown
    else
      loop W.nw (fun w ts => do
        let b ← rd W.connpos w
        let e ← rd W.connpos (w + 1)
        forRange b e (fun perf ts => do
          let cell ← rd W.cells perf
          let rate ← rd rates perf
          let v ← perfSource P W press w perf cell rate
          let x ← rdI ts cell
          wrI ts cell (x + v)) ts) (List.replicate P.nc 0)

end Opm.MiscBlackoil
