import Verif.Model.Grid
import Verif.Model.Wells
import Verif.Core.RowLoop
/-!
# Model of `opm/core/utility/miscUtilities.cpp`

Volumes, averages, source terms and well rates.  Numbers are exact rationals; a division by zero has no value (`Err.nonFinite`).  A `std::vector` result is the
list after the call; a raw output array is passed in as the list of its previous contents.  `ASSERT` is active.  The printed warnings and messages are not modelled.
Taking the address of the first element of an empty vector (`&s[0]`) is not counted as an error.
-/

namespace Opm.MiscUtil
open Opm

/-- `std::vector<double>::resize(n)`: keeps the first `n` elements and appends zeros. -/
def vresize (l : List Rat) (n : Nat) : List Rat := l.take n ++ List.replicate (n - l.length) 0

/-- `std::fill(a, a + n, 0.0)`.  -/
def fillZero (n : Nat) (a : List Rat) : M (List Rat) := loop n (fun p a => wr a p 0) a

/-- `computePorevolume(grid, porosity, porevol)`.  Models: `miscUtilities.cpp:42-52`. -/
def computePorevolume (nc : Nat) (vol porosity porevol : List Rat) : M (List Rat) :=
  loop nc (fun i pv => do
    let phi ← rd porosity i
    let v ← rd vol i
    wr pv i (phi * v)) (vresize porevol nc)

/-- `computePorevolume(grid, porosity, rock_comp, pressure, porevol)`.  Models: `miscUtilities.cpp:61-72`.  `mult` is `rock_comp.poroMult`. -/
def computePorevolumeComp (mult : Rat → M Rat) (nc : Nat) (vol porosity pressure porevol : List Rat) : M (List Rat) :=
  loop nc (fun i pv => do
    let phi ← rd porosity i
    let v ← rd vol i
    let p ← rd pressure i
    let m ← mult p
    wr pv i (phi * v * m)) (vresize porevol nc)

/-- `computePorosity(grid, porosity_standard, rock_comp, pressure, porosity)`.  Models: `miscUtilities.cpp:80-91`.  `mult` is `rock_comp.poroMult`. -/
def computePorosity (mult : Rat → M Rat) (nc : Nat) (standard pressure porosity : List Rat) : M (List Rat) :=
  loop nc (fun i por => do
    let phi ← rd standard i
    let p ← rd pressure i
    let m ← mult p
    wr por i (phi * m)) (vresize porosity nc)

/-- `const int np = s.size()/pv.size(); if (int(s.size()) != num_cells*np) THROW`.  Models: `miscUtilities.cpp:105-109`, `:130-134`, `:171-175`.
An empty second vector is an integer division by zero. -/
def numPhases (s pv : List Rat) : M Nat :=
  if pv.length = 0 then .error .ub
  else if s.length ≠ pv.length * (s.length / pv.length) then .error .thrown
  else .ok (s.length / pv.length)

/-- `computeSaturatedVol(pv, s, sat_vol)`.  Models: `miscUtilities.cpp:101-116`. -/
def computeSaturatedVol (pv s satVol : List Rat) : M (List Rat) := do
  let np ← numPhases s pv
  let a ← fillZero np satVol
  loop pv.length (fun c a => loop np (fun p a => do
    let v ← rd pv c
    let x ← rd s (np * c + p)
    addAt a p (v * x)) a) a

/-- `computeAverageSat(pv, s, aver_sat)`.  Models: `miscUtilities.cpp:126-149`. -/
def computeAverageSat (pv s averSat : List Rat) : M (List Rat) := do
  let np ← numPhases s pv
  let a ← fillZero np averSat
  let r ← loop pv.length (fun c (r : Rat × List Rat) => do
    let v ← rd pv c
    let a ← loop np (fun p a => do
      let v ← rd pv c
      let x ← rd s (np * c + p)
      addAt a p (v * x)) r.2
    .ok (r.1 + v, a)) (0, a)
  loop np (fun p a => do
    let x ← rd a p
    let y ← fdiv x r.1
    wr a p y) r.2

/-- The part of `IncompPropertiesInterface` used here: phase count, viscosities, densities and relative permeabilities.  `relperm s cells` is what
`relperm(n, s, cells, kr, 0)` writes to `kr`.  Models: `IncompPropertiesInterface.hpp`. -/
structure Props where
  np : Nat
  visc : List Rat
  density : List Rat
  relperm : List Rat → List Int → List Rat

/-- The loops `mob[p] /= visc[p]; totmob += mob[p];`.  Models: `miscUtilities.cpp:188-192`. -/
def mobilities (P : Props) (np : Nat) (mob : List Rat) : M (List Rat × Rat) :=
  loop np (fun p (r : List Rat × Rat) => do
    let k ← rd r.1 p
    let mu ← rd P.visc p
    let m ← fdiv k mu
    let mob ← wr r.1 p m
    .ok (mob, r.2 + m)) (mob, 0)

/-- `computeInjectedProduced(props, s, src, dt, injected, produced)`.  Models: `miscUtilities.cpp:164-197`. -/
def computeInjectedProduced (P : Props) (s src : List Rat) (dt : Rat) (injected produced : List Rat) : M (List Rat × List Rat) := do
  let np ← numPhases s src
  let inj ← fillZero np injected
  let prod ← fillZero np produced
  loop src.length (fun c (r : List Rat × List Rat) => do
    let q ← rd src c
    if q > 0 then do
      let inj ← addAt r.1 0 (q * dt)
      .ok (inj, r.2)
    else if q < 0 then do
      let flux := -q * dt
      let m ← mobilities P np (P.relperm ((s.drop (np * c)).take np) [(c : Int)])
      let prod ← loop np (fun p prod => do
        let x ← rd m.1 p
        let y ← fdiv x m.2
        addAt prod p (y * flux)) r.2
      .ok (r.1, prod)
    else .ok r) (inj, prod)

/-- `computePhaseMobilities(props, cells, s, pmobc)`.  Models: `miscUtilities.cpp:267-289`. -/
def computePhaseMobilities (P : Props) (cells : List Int) (s : List Rat) : M (List Rat) := do
  check (s.length = cells.length * P.np)
  let r ← loop cells.length (fun _ (r : Nat × List Rat) => loop P.np (fun p (r : Nat × List Rat) => do
    let x ← rd r.2 r.1
    let mu ← rd P.visc p
    let y ← fdiv x mu
    let l ← wr r.2 r.1 y
    .ok (r.1 + 1, l)) r) (0, P.relperm s cells)
  .ok r.2

/-- `computeTotalMobility(props, cells, s, totmob)`.  Models: `miscUtilities.cpp:206-225`. -/
def computeTotalMobility (P : Props) (cells : List Int) (s : List Rat) : M (List Rat) := do
  let pm ← computePhaseMobilities P cells s
  loop cells.length (fun c t => loop P.np (fun p t => do
    let m ← rd pm (c * P.np + p)
    addAt t c m) t) (List.replicate cells.length 0)

/-- `computeTotalMobilityOmega(props, cells, s, totmob, omega)`.  Models: `miscUtilities.cpp:234-259`. -/
def computeTotalMobilityOmega (P : Props) (cells : List Int) (s : List Rat) : M (List Rat × List Rat) := do
  let pm ← computePhaseMobilities P cells s
  loop cells.length (fun c (r : List Rat × List Rat) => do
    let r ← loop P.np (fun p (r : List Rat × List Rat) => do
      let m ← rd pm (c * P.np + p)
      let rho ← rd P.density p
      let t ← addAt r.1 c m
      let o ← addAt r.2 c (m * rho)
      .ok (t, o)) r
    let o ← rd r.2 c
    let t ← rd r.1 c
    let y ← fdiv o t
    let om ← wr r.2 c y
    .ok (r.1, om)) (List.replicate cells.length 0, List.replicate cells.length 0)

/-- `computeFractionalFlow(props, cells, saturations, fractional_flows)`.  Models: `miscUtilities.cpp:297-315`. -/
def computeFractionalFlow (P : Props) (cells : List Int) (s : List Rat) : M (List Rat) := do
  let pm ← computePhaseMobilities P cells s
  loop cells.length (fun i ff => do
    let sum ← loop P.np (fun p (sum : Rat) => do
      let x ← rd ff (i * P.np + p)
      .ok (sum + x)) 0
    loop P.np (fun p ff => do
      let x ← rd ff (i * P.np + p)
      let y ← fdiv x sum
      wr ff (i * P.np + p) y) ff) pm

/-- `x > 0.0 ? frac*x : x`.  Models: `miscUtilities.cpp:347`, `:358`. -/
def weigh (frac x : Rat) : Rat := if x > 0 then frac * x else x

/-- The inflow through face `f` of cell `c` if it is on the boundary, else zero.  Models: `miscUtilities.cpp:350-356`. -/
def bdyInflux (G : GridTopo) (flux : List Rat) (c f : Nat) : M Rat := do
  let a ← rd G.faceCells (2 * f)
  let b ← rd G.faceCells (2 * f + 1)
  if a = (c : Int) ∧ b = -1 then do
    let q ← rd flux f
    .ok (-q)
  else if a = -1 ∧ b = (c : Int) then rd flux f
  else .ok 0

/-- First loop of `computeTransportSource`.  Models: `miscUtilities.cpp:345-361`. -/
def sourcesAndBoundary (G : GridTopo) (src flux : List Rat) (frac : Rat) (ts : List Rat) : M (List Rat) :=
  loop G.nc (fun c ts => do
    let ts ← wr ts c 0
    let q ← rd src c
    let ts ← addAt ts c (weigh frac q)
    let b ← rd G.cellFacepos c
    let e ← rd G.cellFacepos (c + 1)
    forRange b e (fun hf ts => do
      let f ← rd G.cellFaces hf
      let v ← bdyInflux G flux c f
      if v ≠ 0 then addAt ts c (weigh frac v) else .ok ts) ts) ts

/-- What one perforation adds: the total rate if it produces, the first phase if an injector injects, nothing if a producer injects.
Models: `miscUtilities.cpp:372-388`. -/
def perfSource (W : Wells.W) (w : Nat) (rate : Rat) : M Rat :=
  if rate > 0 then do
    let t ← rd W.type w
    if t ≠ .injector then .ok 0
    else do
      let c0 ← rd W.compFrac (W.np * w)
      let c1 ← rd W.compFrac (W.np * w + 1)
      check (decide (c0 + c1 - 1 < 1 / 1000000 ∧ -(c0 + c1 - 1) < 1 / 1000000))
      .ok (rate * c0)
  else .ok rate

/-- `computeTransportSource(grid, src, faceflux, inflow_frac, wells, well_perfrates, transport_src)`.  Models: `miscUtilities.cpp:334-392`. -/
def computeTransportSource (G : GridTopo) (src flux : List Rat) (frac : Rat) (W : Option Wells.W) (perfrates ts : List Rat) : M (List Rat) := do
  let ts ← sourcesAndBoundary G src flux frac (vresize ts G.nc)
  match W with
  | none => .ok ts
  | some W =>
    if W.np ≠ 2 then .error .thrown
    else loop W.nw (fun w ts => do
      let b ← rd W.connpos w
      let e ← rd W.connpos (w + 1)
      forRange b e (fun perf ts => do
        let cell ← rd W.cells perf
        let rate ← rd perfrates perf
        let v ← perfSource W w rate
        let x ← rdI ts cell
        wrI ts cell (x + v)) ts) ts

/-- Geometry read by `estimateCellVelocity`.  Models: `opm/core/grid.h:159-199`. -/
structure VelGeo where
  dim : Nat
  faceCent : List Rat
  cellCent : List Rat
  vol : List Rat

/-- `estimateCellVelocity(grid, face_flux, cell_velocity)`.  Models: `miscUtilities.cpp:398-420`. -/
def estimateCellVelocity (G : GridTopo) (g : VelGeo) (flux : List Rat) : M (List Rat) :=
  loop G.nf (fun f v => do
    let c0 ← rd G.faceCells (2 * f)
    let c1 ← rd G.faceCells (2 * f + 1)
    let q ← rd flux f
    loop 2 (fun i v => do
      let c := if i = 0 then c0 else c1
      if c ≥ 0 then
        loop g.dim (fun d v => do
          let x ← rd g.faceCent (f * g.dim + d)
          let y ← rd g.cellCent (c.toNat * g.dim + d)
          let vol ← rd g.vol c.toNat
          let r ← fdiv q vol
          let contrib := (x - y) * r
          addAt v (c.toNat * g.dim + d) (if i = 0 then contrib else -contrib)) v
      else .ok v) v) (List.replicate (G.nc * g.dim) 0)

/-- `toWaterSat(sboth, sw)`.  Models: `miscUtilities.cpp:424-432`. -/
def toWaterSat (sboth sw : List Rat) : M (List Rat) :=
  loop (sboth.length / 2) (fun i sw => do
    let x ← rd sboth (2 * i)
    wr sw i x) (vresize sw (sboth.length / 2))

/-- `toBothSat(sw, sboth)`.  Models: `miscUtilities.cpp:436-445`. -/
def toBothSat (sw sboth : List Rat) : M (List Rat) :=
  loop sw.length (fun i sb => do
    let x ← rd sw i
    let sb ← wr sb (2 * i) x
    let x ← rd sw i
    wr sb (2 * i + 1) (1 - x)) (vresize sboth (2 * sw.length))

/-- One well of `wellsToSrc`.  Models: `miscUtilities.cpp:459-479`.  The message about several controls is not modelled. -/
def wellToSrc (W : Wells.W) (w : Nat) (src : List Rat) : M (List Rat) := do
  let ctrl ← rd W.ctrls w
  let t ← rdI ctrl.type ctrl.current
  if t ≠ .reservoirRate then .error .thrown
  else do
    let b ← rd W.connpos w
    let e ← rd W.connpos (w + 1)
    if (e : Int) - b ≠ 1 then .error .thrown
    else do
      loop W.np (fun p (_ : Unit) => do
        let d ← rdI ctrl.distr (W.np * ctrl.current + p)
        if d ≠ 1 then .error .thrown else .ok ()) ()
      let target ← rdI ctrl.target ctrl.current
      let type ← rd W.type w
      let frac ← if type = .injector then rd W.compFrac (W.np * w) else .ok 1
      let cell ← rd W.cells b
      wrI src cell (target * frac)

/-- `wellsToSrc(wells, num_cells, src)`.  Models: `miscUtilities.cpp:451-481`. -/
def wellsToSrc (W : Wells.W) (numCells : Nat) (src : List Rat) : M (List Rat) :=
  if W.np ≠ 2 then .error .thrown
  else loop W.nw (wellToSrc W) (vresize src numCells)

/-- `saturation_sum` of `computeWDP` over the entries `base, …, base + np - 1`; zero is replaced by one.  Models: `miscUtilities.cpp:501-511`. -/
def satSum (np base : Nat) (s : List Rat) : M Rat := do
  let sum ← loop np (fun p (a : Rat) => do
    let x ← rd s (base + p)
    .ok (a + x)) 0
  .ok (if sum = 0 then 1 else sum)

/-- `density` of `computeWDP`.  Models: `miscUtilities.cpp:512-520`. -/
def satDensity (np base : Nat) (s dens : List Rat) (sum : Rat) : M Rat :=
  loop np (fun p (a : Rat) => do
    let x ← rd s (base + p)
    let r ← rd dens p
    .ok (a + x * r / sum)) 0

/-- `computeWDP(wells, grid, saturations, densities, gravity, per_grid_cell, wdp)`.  Models: `miscUtilities.cpp:484-526`.  A division by a number of cells or
perforations that is zero is undefined.  A negative cell number is undefined. -/
def computeWDP (W : Wells.W) (nc : Nat) (cellCent : List Rat) (s dens : List Rat) (grav : Rat) (perCell : Bool) (wdp : List Rat) : M (List Rat) := do
  let n ← if perCell then .ok nc else rd W.connpos W.nw
  if n = 0 then .error .ub
  else
    let np := s.length / n
    loop W.nw (fun w wdp => do
      let dref ← rd W.depthRef w
      let b ← rd W.connpos w
      let e ← rd W.connpos (w + 1)
      forRange b e (fun j wdp => do
        let cell ← rd W.cells j
        let depth ← rdI cellCent (3 * cell + 2)
        let base := if perCell then np * cell.toNat else j * np
        let sum ← satSum np base s
        let rho ← satDensity np base s dens sum
        .ok (wdp ++ [rho * (depth - dref) * grav])) wdp) wdp

/-- `computeFlowRatePerWell(wells, flow_rates_per_cell, flow_rates_per_well)`.  Models: `miscUtilities.cpp:529-541`. -/
def computeFlowRatePerWell (W : Wells.W) (rates perWell : List Rat) : M (List Rat) := do
  let r ← loop W.nw (fun w (r : Nat × List Rat) => do
    let e ← rd W.connpos (w + 1)
    let b ← rd W.connpos w
    let s ← loop (e - b) (fun _ (s : Nat × Rat) => do
      let x ← rd rates s.1
      .ok (s.1 + 1, s.2 + x)) (r.1, 0)
    .ok (s.1, r.2 ++ [s.2])) (0, perWell)
  .ok r.2

/-- `computePhaseFlowRatesPerWell(wells, flow_rates_per_well_cell, fractional_flows, phase_flow_per_well)`.  Models: `miscUtilities.cpp:550-571`. -/
def computePhaseFlowRatesPerWell (W : Wells.W) (rates ff out : List Rat) : M (List Rat) := do
  let n ← rd W.connpos W.nw
  check (rates.length = n)
  loop W.nw (fun w out => do
    let out ← loop W.np (fun p out => wr out (w * W.np + p) 0) out
    let b ← rd W.connpos w
    let e ← rd W.connpos (w + 1)
    forRange b e (fun i out => do
      let cell ← rd W.cells i
      loop W.np (fun p out => do
        let q ← rd rates i
        let f ← rdI ff (cell * W.np + p)
        addAt out (w * W.np + p) (q * f)) out) out) (vresize out (W.nw * W.np))

end Opm.MiscUtil
