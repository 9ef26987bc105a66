import Verif.Model.Blackoil
import Verif.Model.MiscUtil
/-!
# Initial states

Models `opm/core/simulator/initState_impl.hpp`, `TwophaseState.hpp`, `BlackoilState.hpp` and `WellState.hpp`.
The two classes of states have the same functions and are modelled together.  Numbers are exact rationals; the square root is an argument.
Taking the address of the first element of an empty vector is not counted as an error here, as nothing is read there.
-/

namespace Opm.InitState
open Opm Opm.Blackoil Opm.Pvt

/-- The parts of a grid which are looked at.  The number of dimensions is positive. -/
structure SGrid where
  dim : Nat
  cells : Nat
  faces : Nat
  faceCells : List Int
  cellCent : List Rat
  faceCent : List Rat
  globalCell : Option (List Nat) := none
  /-- `cartdims[0]` -/
  cart0 : Nat := 1

/-- Data members.  Models: `TwophaseState.hpp:91-95`, `BlackoilState.hpp:92-97`. -/
structure State where
  np : Nat := 0
  press : List Rat := []
  fpress : List Rat := []
  flux : List Rat := []
  sat : List Rat := []
  surfvol : List Rat := []
  deriving DecidableEq, Repr

/-- `init`.  Models: `TwophaseState.hpp:35-50`, `BlackoilState.hpp:35-50`. -/
def State.init (st : State) (g : SGrid) (np : Nat) : M State := do
  let sat ← loop g.cells (fun c s => wr s (np * c + 1) 1) (MiscUtil.vresize st.sat (np * g.cells))
  .ok { np := np, press := MiscUtil.vresize st.press g.cells, fpress := MiscUtil.vresize st.fpress g.faces, flux := MiscUtil.vresize st.flux g.faces, sat := sat, surfvol := st.surfvol }

/-- What is used of `satRange` of properties: smallest and largest saturations of all phases, for a list of cells. -/
abbrev Range := List Nat → M (List Rat × List Rat)

/-- `setFirstSat`; `max` selects the largest saturation.  Models: `TwophaseState.hpp:54-68`, `BlackoilState.hpp:58-72`. -/
def State.setFirstSat (st : State) (range : Range) (cells : List Nat) (max : Bool) : M State := do
  let r ← range cells
  let sat ← loop cells.length (fun ci s => do
    let cell ← rd cells ci
    let v ← rd (if max then r.2 else r.1) (st.np * ci)
    let s ← wr s (st.np * cell) v
    let x ← rd s (st.np * cell)
    wr s (st.np * cell + 1) (1 - x)) st.sat
  .ok { st with sat := sat }

/-- Depth of the centroid of a cell. -/
def SGrid.depth (g : SGrid) (c : Nat) : M Rat := rd g.cellCent (g.dim * c + (g.dim - 1))

/-- `cellsBelowAbove`.  Models: `initState_impl.hpp:44-61`. -/
def cellsBelowAbove (g : SGrid) (depth : Rat) : M (List Nat × List Nat) :=
  loop g.cells (fun c r => do
    let z ← g.depth c
    .ok (if depth < z then (r.1 ++ [c], r.2) else (r.1, r.2 ++ [c]))) ([], [])

/-- `initWaterOilContact`; `below` is `WaterBelow`.  Models: `initState_impl.hpp:69-93`. -/
def initWaterOilContact (g : SGrid) (range : Range) (woc : Rat) (below : Bool) (st : State) : M State := do
  let r ← cellsBelowAbove g woc
  let st ← st.setFirstSat range (if below then r.2 else r.1) false
  st.setFirstSat range (if below then r.1 else r.2) true

/-- `initHydrostaticPressure` for constant densities; the pressures are returned.  Models: `initState_impl.hpp:108-128`. -/
def hydrostatic (g : SGrid) (dens : List Rat) (woc grav datumZ datumP : Rat) (p : List Rat) : M (List Rat) := do
  let rhoD ← rd dens (if woc < datumZ then 0 else 1)
  let wocP := datumP + (woc - datumZ) * grav * rhoD
  loop g.cells (fun c p => do
    let z ← g.depth c
    let rho ← rd dens (if woc < z then 0 else 1)
    wr p c (wocP + (z - woc) * grav * rho)) p

/-- Distance of a face from a cell, and the pressure of the cell.  Models: `initState_impl.hpp:281-287`. -/
def faceSide (sqrt : Rat → Rat) (g : SGrid) (cp : List Rat) (f : Nat) (c : Int) : M (Rat × Rat) := do
  let d ← loop g.dim (fun dd d => do
    let x ← rd g.faceCent (g.dim * f + dd)
    let y ← rdI g.cellCent (g.dim * c + dd)
    .ok (d + (x - y) * (x - y))) 0
  let p ← rdI cp c
  .ok (sqrt d, p)

/-- The weighted mean.  Models: `initState_impl.hpp:293`. -/
def faceMean (a b : Rat × Rat) : M Rat := do
  let x ← fdiv b.1 (a.1 + b.1)
  let y ← fdiv a.1 (a.1 + b.1)
  .ok (a.2 * x + b.2 * y)

/-- The pressure of one face.  With no cell on either side the code takes the first of two zeros.  Models: `initState_impl.hpp:274-296`. -/
def faceValue (sqrt : Rat → Rat) (g : SGrid) (cp : List Rat) (f : Nat) (c0 c1 : Int) : M Rat :=
  if 0 ≤ c0 then
    if 0 ≤ c1 then do
      let a ← faceSide sqrt g cp f c0
      let b ← faceSide sqrt g cp f c1
      faceMean a b
    else do
      let a ← faceSide sqrt g cp f c0
      .ok a.2
  else if 0 ≤ c1 then do
    let b ← faceSide sqrt g cp f c1
    .ok b.2
  else .ok 0

/-- `initFacePressure`; the pressures of faces are returned.  Models: `initState_impl.hpp:268-298`. -/
def facePressure (sqrt : Rat → Rat) (g : SGrid) (cp fp : List Rat) : M (List Rat) :=
  loop g.faces (fun f fp => do
    let c0 ← rd g.faceCells (2 * f)
    let c1 ← rd g.faceCells (2 * f + 1)
    let v ← faceValue sqrt g cp f c0 c1
    wr fp f v) fp

/-! ### Initialisation from parameters -/

/-- Parameters which are looked at; `refPressure` is in bar, and is read as an integer. -/
structure Params where
  convection : Bool := false
  segregation : Bool := false
  woc : Option Rat := none
  initSat : Option Rat := none
  refPressure : Int := 100

/-- `unit::barsa` in Pascal.  Models: `Units.hpp:136`. -/
def barsa : Rat := 100000

/-- The parts of incompressible properties which are looked at. -/
structure IncProps where
  num : Nat
  cells : Nat
  density : List Rat
  range : Range

/-- Position of a cell in the deck. -/
def SGrid.deckPos (g : SGrid) (c : Nat) : M Nat := match g.globalCell with | none => .ok c | some gc => rd gc c

/-- The left half of the grid.  Models: `initState_impl.hpp:327-337`, `:422-432`. -/
def leftCells (g : SGrid) (n : Nat) : M (List Nat) :=
  loop n (fun c l => do
    let gc ← g.deckPos c
    if g.cart0 = 0 then .error .ub
    else .ok (if gc % g.cart0 < g.cart0 / 2 then l ++ [c] else l)) []

/-- Convection: water on the left, and constant pressure.  Models: `initState_impl.hpp:325-341`, `:421-436`. -/
def convection (g : SGrid) (range : Range) (n : Nat) (ref : Rat) (st : State) : M State := do
  let l ← leftCells g n
  let st ← st.setFirstSat range l true
  .ok { st with press := List.replicate st.press.length ref }

/-- The same saturations everywhere.  Models: `initState_impl.hpp:374-377`. -/
def constantSat (n : Nat) (s0 : Rat) (sat : List Rat) : M (List Rat) :=
  loop n (fun c s => do
    let s ← wr s (2 * c) s0
    wr s (2 * c + 1) (1 - s0)) sat

/-- Saturations and pressures of the cells, for each of the choices.  Models: `initState_impl.hpp:325-392`. -/
def basicCells (g : SGrid) (P : IncProps) (q : Params) (grav : Rat) (st : State) : M State :=
  let ref := q.refPressure * barsa
  if q.convection then convection g P.range P.cells ref st
  else if q.segregation then
    match q.woc with
    | none => .error .thrown
    | some woc => do
      let st ← initWaterOilContact g P.range woc false st
      let r0 ← rd P.density 0
      let r1 ← rd P.density 1
      let p ← hydrostatic g [r1, r0] woc grav woc ref st.press
      .ok { st with press := p }
  else match q.woc, q.initSat with
    | some woc, _ => do
      let st ← initWaterOilContact g P.range woc true st
      let p ← hydrostatic g P.density woc grav woc ref st.press
      .ok { st with press := p }
    | none, some s0 => do
      let sat ← constantSat P.cells s0 st.sat
      let r0 ← rd P.density 0
      let r1 ← rd P.density 1
      let rho := r0 * s0 + r1 * (1 - s0)
      let z ← g.depth 0
      let p ← hydrostatic g [rho, rho] z grav z ref st.press
      .ok { st with sat := sat, press := p }
    | none, none => do
      let rho ← rd P.density 1
      let z ← g.depth 0
      let p ← hydrostatic g [rho, rho] z grav z ref st.press
      .ok { st with press := p }

/-- `initStateBasic` for incompressible properties.  Models: `initState_impl.hpp:306-396`. -/
def initBasic (sqrt : Rat → Rat) (g : SGrid) (P : IncProps) (q : Params) (grav : Rat) (st : State) : M State :=
  if P.num ≠ 2 then .error .thrown
  else do
    let st ← st.init g P.num
    let st ← st.setFirstSat P.range (List.range P.cells) false
    let st ← basicCells g P q grav st
    let fp ← facePressure sqrt g st.press st.fpress
    .ok { st with fpress := fp }

/-! ### Compressible fluids -/

/-- `int(std::ceil(std::fabs(len)/hmin))`: infinite and too large numbers do not fit. -/
def numSteps (len hmin : Rat) : M Nat :=
  if hmin = 0 then .error .ub
  else
    let n := (|len| / hmin).ceil
    if n > 2147483647 ∨ n < -2147483648 then .error .ub else .ok n.toNat

/-- Steps of the explicit Euler method: the points reached, and the last pressure.  `h` is not used without steps.  Models: `initState_impl.hpp:212-217`, `:226-231`, `:240-245`. -/
def march (rho : Rat → M Rat) (grav h : Rat) (n : Nat) (z p : Rat) (m : List (Rat × Rat)) : M (Rat × Rat × List (Rat × Rat)) :=
  loop n (fun _ s => do
    let r ← rho s.2.1
    .ok (s.1 + h, s.2.1 + h * (r * grav), MonotCubic.put (s.1 + h) (s.2.1 + h * (r * grav)) s.2.2)) (z, p, m)

/-- Smallest and largest depth, starting from the limits of the code.  Models: `initState_impl.hpp:187-192`. -/
def depthRange (g : SGrid) : M (Rat × Rat) :=
  loop g.cells (fun c r => do
    let z ← g.depth c
    .ok (min r.1 z, max r.2 z)) ((10 : Rat) ^ 100, -(10 : Rat) ^ 100)

/-- The points of the pressure as a function of depth.  The third part takes the number of steps of the second, and the length from the datum, although it starts at the contact.
Models: `initState_impl.hpp:194-245`. -/
def pressurePoints (rho : Rat → Nat → M Rat) (zlim : Rat × Rat) (woc grav datumZ datumP : Rat) : M (List (Rat × Rat)) := do
  let hmin := (zlim.2 - zlim.1) / 100
  let ph := if woc < datumZ then 0 else 1
  let n1 ← numSteps (woc - datumZ) hmin
  let a ← march (fun p => rho p ph) grav ((woc - datumZ) / n1) n1 datumZ datumP [(datumZ, datumP)]
  let e2 := if woc < datumZ then zlim.2 else zlim.1
  let n2 ← numSteps (e2 - datumZ) hmin
  let b ← march (fun p => rho p ph) grav ((e2 - datumZ) / n2) n2 datumZ datumP a.2.2
  let e3 := if woc < datumZ then zlim.1 else zlim.2
  let c ← march (fun p => rho p ((ph + 1) % 2)) grav ((e3 - datumZ) / n2) n2 woc a.2.1 b.2.2
  .ok c.2.2

/-- Values of the interpolated pressure in all cells.  Models: `initState_impl.hpp:258-263`. -/
def pressureCells (g : SGrid) (s : MonotCubic.Interp Rat) (p : List Rat) : M (MonotCubic.Interp Rat × List Rat) :=
  loop g.cells (fun c t => do
    let z ← g.depth c
    let v ← MonotCubic.evaluate t.1 z
    let q ← wr t.2 c v.1
    .ok (v.2, q)) (s, p)

/-- `initHydrostaticPressure` for compressible fluids of `np` phases with density `rho`.  Models: `initState_impl.hpp:176-264`. -/
def hydrostaticComp (u : Sampling) (np : Nat) (rho : Rat → Nat → M Rat) (g : SGrid) (woc grav datumZ datumP : Rat) (p : List Rat) : M (List Rat) := do
  check (decide (np = 2))
  let zlim ← depthRange g
  let m ← pressurePoints rho zlim woc grav datumZ datumP
  let s ← MonotCubic.construct u.sqrt u.c1 u.c2 u.fl (m.map (·.1)) (m.map (·.2))
  let r ← pressureCells g s p
  .ok r.2

/-- `Density`, for the matrix of the fluid properties and the surface densities.  Models: `initState_impl.hpp:149-166`. -/
def densityOf (matrix : List Rat → List Rat → List Rat → M (List Rat)) (sdens : List Rat) (p : Rat) (phase : Nat) : M Rat := do
  let z ← rd [[1, 0], [0, 1]] phase
  let a ← matrix [p] z [0, 0, 0, 0]
  let rho ← density 2 sdens 1 a [0, 0]
  rd rho phase

/-- Saturations and pressures of the cells.  Models: `initState_impl.hpp:420-458`. -/
def compCells (g : SGrid) (cells : Nat) (range : Range) (hydro : Rat → Rat → Rat → List Rat → M (List Rat)) (q : Params) (st : State) : M State :=
  let ref := q.refPressure * barsa
  if q.convection then convection g range cells ref st
  else match q.woc with
    | some woc => do
      let st ← initWaterOilContact g range woc true st
      let p ← hydro woc woc ref st.press
      .ok { st with press := p }
    | none => do
      let z ← g.depth 0
      let p ← hydro (-(10 : Rat) ^ 100) z ref st.press
      .ok { st with press := p }

/-- `initStateBasic` for black-oil properties; `hydro` is `hydrostaticComp` for contact, datum depth and pressure.  Models: `initState_impl.hpp:401-462`. -/
def initBasicComp (sqrt : Rat → Rat) (g : SGrid) (num cells : Nat) (range : Range) (hydro : Rat → Rat → Rat → List Rat → M (List Rat)) (q : Params) (st : State) : M State :=
  if num ≠ 2 then .error .thrown
  else do
    let st ← st.init g num
    let st ← st.setFirstSat range (List.range cells) false
    let st ← compCells g cells range hydro q st
    let fp ← facePressure sqrt g st.press st.fpress
    .ok { st with fpress := fp }

/-! ### Initialisation from a deck -/

/-- A line of EQUIL. -/
structure Equil where
  datumZ : Rat
  datumP : Rat
  woc : Rat
  deriving DecidableEq, Repr

/-- The parts of a deck which are looked at. -/
structure InitDeck where
  phases : Deck
  equil : Option (List Equil) := none
  pressure : Option (List Rat) := none
  swat : Option (List Rat) := none
  sgas : Option (List Rat) := none

/-- One saturation is given, the other is what is left.  Models: `initState_impl.hpp:512-518`, `:526-532`. -/
def twoFromDeck (g : SGrid) (x pd : List Rat) (pos other : Nat) (s p : List Rat) : M (List Rat × List Rat) :=
  loop g.cells (fun c r => do
    let d ← g.deckPos c
    let v ← rd x d
    let s ← wr r.1 (2 * c + pos) v
    let s ← wr s (2 * c + other) (1 - v)
    let q ← rd pd d
    let p ← wr r.2 c q
    .ok (s, p)) (s, p)

/-- Two saturations are given.  Models: `initState_impl.hpp:539-549`. -/
def threeFromDeck (g : SGrid) (sw sg pd : List Rat) (w o gas : Nat) (s p : List Rat) : M (List Rat × List Rat) :=
  loop g.cells (fun c r => do
    let d ← g.deckPos c
    let a ← rd sw d
    let b ← rd sg d
    let s ← wr r.1 (3 * c + w) a
    let s ← wr s (3 * c + o) (1 - (a + b))
    let s ← wr s (3 * c + gas) b
    let q ← rd pd d
    let p ← wr r.2 c q
    .ok (s, p)) (s, p)

/-- Saturations and pressures of the deck, for the phases which are used.  Models: `initState_impl.hpp:504-553`. -/
def deckArrays (g : SGrid) (d : InitDeck) (num : Nat) (water : Bool) (w o v : Nat) (pd s p : List Rat) : M (List Rat × List Rat) :=
  if num = 2 then
    if water then match d.swat with
      | none => .error .thrown
      | some sw => twoFromDeck g sw pd w ((w + 1) % 2) s p
    else match d.sgas with
      | none => .error .thrown
      | some sg => twoFromDeck g sg pd v o s p
  else if num = 3 then
    match d.swat, d.sgas with
    | some sw, some sg => threeFromDeck g sw sg pd w o v s p
    | _, _ => .error .thrown
  else .error .thrown

/-- Values of the deck.  Models: `initState_impl.hpp:499-553`. -/
def valuesFromDeck (g : SGrid) (d : InitDeck) (pu : PhaseUsage) (pd : List Rat) (st : State) : M State := do
  let w ← rd pu.pos Aqua
  let o ← rd pu.pos Liquid
  let v ← rd pu.pos Vapour
  let water ← rd pu.used Aqua
  let r ← deckArrays g d pu.num water w o v pd st.sat st.press
  .ok { st with sat := r.1, press := r.2 }

/-- Equilibrium.  Models: `initState_impl.hpp:481-497`. -/
def equilibrium (g : SGrid) (range : Range) (hydro : Rat → Rat → Rat → List Rat → M (List Rat)) (pu : PhaseUsage) (l : List Equil) (st : State) : M State :=
  if pu.num ≠ 2 then .error .thrown
  else do
    let gas ← rd pu.used Vapour
    if gas then .error .thrown
    else if l.length ≠ 1 then .error .thrown
    else do
      let e ← rd l 0
      let st ← initWaterOilContact g range e.woc true st
      let p ← hydro e.woc e.datumZ e.datumP st.press
      .ok { st with press := p }

/-- EQUIL or PRESSURE.  Models: `initState_impl.hpp:480-556`. -/
def deckCells (g : SGrid) (range : Range) (hydro : Rat → Rat → Rat → List Rat → M (List Rat)) (d : InitDeck) (pu : PhaseUsage) (st : State) : M State :=
  match d.equil, d.pressure with
  | some l, _ => equilibrium g range hydro pu l st
  | none, some pd => valuesFromDeck g d pu pd st
  | none, none => .error .thrown

/-- `initStateFromDeck` for properties with `num` phases; `hydro` is one of the functions for hydrostatic pressures, for contact, datum depth and pressure.  Models: `initState_impl.hpp:467-560`. -/
def initFromDeck (sqrt : Rat → Rat) (g : SGrid) (num : Nat) (range : Range) (hydro : Rat → Rat → Rat → List Rat → M (List Rat)) (d : InitDeck) (st : State) : M State := do
  let pu ← phaseUsage d.phases
  if num ≠ pu.num then .error .thrown
  else do
    let st ← st.init g num
    let st ← deckCells g range hydro d pu st
    let fp ← facePressure sqrt g st.press st.fpress
    .ok { st with fpress := fp }

/-! ### Surface volumes -/

/-- `initBlackoilSurfvol` for the matrix of the fluid properties.  Models: `initState_impl.hpp:568-599`. -/
def initSurfvol (g : SGrid) (np : Nat) (matrix : List Rat → List Rat → List Rat → M (List Rat)) (st : State) : M State := do
  let a ← matrix st.press st.sat (List.replicate (g.cells * np * np) 0)
  let z ← loop g.cells (fun c z => do
    let z ← loop np (fun row z => wr z (c * np + row) 0) z
    loop np (fun col z =>
      loop np (fun row z => do
        let x ← rd a (c * np * np + (row + np * col))
        let s ← rd st.sat (c * np + col)
        let y ← rd z (c * np + row)
        wr z (c * np + row) (y + x * s)) z) z) st.sat
  .ok { st with surfvol := z }

/-! ### Wells -/

/-- Data members of `WellState`. -/
structure WellState where
  bhp : List Rat := []
  rates : List Rat := []
  press : List Rat := []
  deriving DecidableEq, Repr

/-- The pressure of the cell of the first perforation.  Models: `WellState.hpp:49-50`. -/
def firstPressure (W : Wells.W) (p : List Rat) (w : Nat) : M Rat := do
  let k ← rd W.connpos w
  let c ← rd W.cells k
  rdI p c

/-- The bottom-hole pressure of a well.  Models: `WellState.hpp:44-54`. -/
def wellBhp (W : Wells.W) (p : List Rat) (w : Nat) : M Rat := do
  let ctrl ← rd W.ctrls w
  if ctrl.current < 0 then firstPressure W p w
  else do
    let t ← rdI ctrl.type ctrl.current
    if t ≠ .bhp then firstPressure W p w else rdI ctrl.target ctrl.current

/-- `std::vector::resize(n, v)`. -/
def resizeWith (l : List Rat) (n : Nat) (v : Rat) : List Rat := l.take n ++ List.replicate (n - l.length) v

/-- `init` with wells; without wells nothing is done.  Models: `WellState.hpp:35-58`. -/
def WellState.init (s : WellState) (W : Option Wells.W) (p : List Rat) : M WellState :=
  match W with
  | none => .ok s
  | some W => do
    let bhp ← loop W.nw (fun w b => do
      let v ← wellBhp W p w
      wr b w v) (resizeWith s.bhp W.nw 0)
    let n ← rd W.connpos W.nw
    .ok ⟨bhp, resizeWith s.rates n 0, resizeWith s.press n (-(10 : Rat) ^ 100)⟩

end Opm.InitState
