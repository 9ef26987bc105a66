import Verif.Model.Trans
import Verif.Model.SparseSys
import Verif.Model.Sources
import Mathlib.Algebra.Order.Ring.Rat
/-!
# Implicit two-phase transport

Models `opm/core/transport/implicit`: `TransportSolverTwophaseImplicit.cpp`, `SimpleFluid2pWrappingProps_impl.hpp`, `SinglePointUpwindTwoPhase.hpp`, `ImplicitAssembly.hpp`,
`ImplicitTransport.hpp`, `JacobianSystem.hpp`, `CSRMatrixBlockAssembler.hpp`, and the maximum norm of `NormSupport.hpp`.  Numbers are exact rationals.  `makefhfQPeriodic` (not called by
the solver) is not modelled.  The number of phases is two, so the check at `SimpleFluid2pWrappingProps_impl.hpp:34-36` passes.  Printing is not modelled.
-/

namespace Opm.ImplicitTransport
open Opm

/-- What the solver uses of `IncompPropertiesInterface`.  `relperm c s0 s1` gives the relative permeabilities and their derivatives in Fortran order, `capPress` the capillary pressures and theirs;
`smin` and `smax` are the outcome of `satRange`. -/
structure Props where
  relperm : Nat → Rat → Rat → (Rat × Rat) × (Rat × Rat × Rat × Rat)
  capPress : Nat → Rat → Rat → (Rat × Rat) × (Rat × Rat × Rat × Rat)
  mu : Rat × Rat
  rho : Rat × Rat
  smin : List Rat
  smax : List Rat

/-- `ImplicitTransportDetails::NRControl`.  Models: `ImplicitTransport.hpp:42-59`. -/
structure Control where
  maxIt : Int
  atol : Rat
  rtol : Rat
  dxtol : Rat
  maxItLs : Int

/-- The arguments of the constructor.  `guessPrevious` is the parameter `guess_old_solution`. -/
structure Input where
  G : GridTopo
  geo : Trans.Geo
  P : Props
  gravity : Option (List Rat)
  porevol : List Rat
  htrans : List Rat
  guessPrevious : Bool
  ctrl : Control

/-- `spu_2p::ModelParameterStorage`; the parts of its buffer are separate arrays here.  Models: `SinglePointUpwindTwoPhase.hpp:83-273`. -/
structure Store where
  drho : Rat
  mob : List Rat
  dmob : List Rat
  porevol : List Rat
  dg : List Rat
  ds : List Rat
  pc : List Rat
  dpc : List Rat
  trans : List Rat

/-- The members of `JacobianSystem`: the matrix and the three vectors.  Models: `JacobianSystem.hpp:138-251`. -/
structure Sys where
  ia : List Nat
  ja : List Nat
  sa : List Rat
  res : List Rat
  inc : List Rat
  sol : List Rat

/-- The members of `TransportSolverTwophaseImplicit` that change. -/
structure Solver where
  f2hf : List Int
  store : Store
  sys : Sys
  tsrc : Sources.TSrc
  pv0 : Rat

/-- What the solver uses of `TwophaseState`. -/
structure State where
  saturation : List Rat
  faceflux : List Rat
  pressure : List Rat

/-- `ImplicitTransportDetails::NRReport`.  Models: `ImplicitTransport.hpp:61-66`. -/
structure Report where
  nit : Int
  flag : Int
  normRes : Rat
  normDx : Rat

/-! ### The fluid -/

/-- `mobility(c, s, mob, dmob)`: mobilities, and the diagonal `dmob[0]`, `dmob[3]` that is used.  Models: `SimpleFluid2pWrappingProps_impl.hpp:51-70`. -/
def mobility (P : Props) (c : Nat) (s0 s1 : Rat) : M ((Rat × Rat) × (Rat × Rat)) := do
  let r := P.relperm c s0 s1
  let m0 ← fdiv r.1.1 P.mu.1
  let m1 ← fdiv r.1.2 P.mu.2
  let d0 ← fdiv r.2.1 P.mu.1
  let d3 ← fdiv r.2.2.2.2 P.mu.2
  .ok ((m0, m1), (d0, d3))

/-- `pc(c, s, pcap, dpcap)`.  Models: `SimpleFluid2pWrappingProps_impl.hpp:75-88`. -/
def capillary (P : Props) (c : Nat) (s0 s1 : Rat) : M (Rat × Rat) := do
  let r := P.capPress c s0 s1
  check (decide (r.1.2 = 0))
  check (decide (r.2.2.1 = 0))
  check (decide (r.2.2.2.1 = 0))
  check (decide (r.2.2.2.2 = 0))
  .ok (r.1.1, r.2.1)

/-! ### Construction -/

/-- `f2hf_`.  Models: `SinglePointUpwindTwoPhase.hpp:288`, `:300-306`. -/
def halfFaces (G : GridTopo) : M (List Int) :=
  rowLoop G.nc G.cellFacepos (fun c i (h : List Int) => do
    let f ← rd G.cellFaces i
    let c1 ← rd G.faceCells (2 * f)
    wr h (2 * f + if c1 = (c : Int) then 0 else 1) (i : Int)) (List.replicate (2 * G.nf) (-1))

/-- `trans`.  Models: `SinglePointUpwindTwoPhase.hpp:477-496`. -/
def transmissibilities (G : GridTopo) (htrans trans : List Rat) : M (List Rat) := do
  let n ← rd G.cellFacepos G.nc
  check (decide (htrans.length = n))
  let t ← Trans.zeroFaces G.nf trans
  let t ← rowLoop G.nc G.cellFacepos (fun _ i t => do
    let f ← rd G.cellFaces i
    let h ← rd htrans i
    check (decide (0 < h))
    let y ← fdiv 1 h
    addAt t f y) t
  Trans.invertFaces G.nf t

/-- `computeStaticGravity(g)`.  Models: `SinglePointUpwindTwoPhase.hpp:663-685`. -/
def staticGravity (G : GridTopo) (geo : Trans.Geo) (g trans dg : List Rat) : M (List Rat) :=
  rowLoop G.nc G.cellFacepos (fun c i dg => do
    let f ← rd G.cellFaces i
    let x ← loop geo.d (fun j acc => do
      let a ← rd g j
      let fc ← rd geo.faceCentroids (f * geo.d + j)
      let cc ← rd geo.cellCentroids (c * geo.d + j)
      .ok (acc + a * (fc - cc))) 0
    let t ← rd trans f
    wr dg i (t * x)) dg

/-- `dg`, if there is gravity.  Models: `SinglePointUpwindTwoPhase.hpp:498-500`. -/
def gravityPart (I : Input) (trans dg : List Rat) : M (List Rat) :=
  match I.gravity with
  | none => .ok dg
  | some g => staticGravity I.G I.geo g trans dg

/-- `create_transport_source(2, 2)`; a null pointer cannot be used.  Models: `TransportSolverTwophaseImplicit.cpp:54`. -/
def newSources (J : Sources.Junk) : M Sources.TSrc :=
  match Sources.TSrc.create J 2 2 with
  | none => .error .ub
  | some src => .ok src

/-- The constructor.  Models: `TransportSolverTwophaseImplicit.cpp:36-56`, `SinglePointUpwindTwoPhase.hpp:91-115`, `:281-309`. -/
def make (J : Sources.Junk) (I : Input) : M Solver := do
  let n ← rd I.G.cellFacepos I.G.nc
  let f2hf ← halfFaces I.G
  let pv ← loop I.porevol.length (fun c pv => do
    let v ← rd I.porevol c
    wr pv c v) (List.replicate I.G.nc 0)
  let trans ← transmissibilities I.G I.htrans (List.replicate n 0)
  let dg ← gravityPart I trans (List.replicate n 0)
  let pv0 ← rd I.porevol 0
  let src ← newSources J
  .ok
    { f2hf := f2hf, tsrc := src, pv0 := pv0, sys := { ia := [], ja := [], sa := [], res := [], inc := [], sol := [] },
      store := { drho := if I.gravity.isSome then I.P.rho.1 - I.P.rho.2 else 0, mob := List.replicate (2 * I.G.nc) 0, dmob := List.replicate (2 * I.G.nc) 0, porevol := pv, dg := dg,
                 ds := List.replicate I.G.nc 0, pc := List.replicate I.G.nc 0, dpc := List.replicate I.G.nc 0, trans := trans } }

/-! ### Contributions to the system -/

/-- `gravityFlux(f)`.  Models: `SinglePointUpwindTwoPhase.hpp:686-703`. -/
def gravityFlux (grav : Bool) (f2hf : List Int) (S : Store) (f : Nat) : M Rat :=
  if grav then do
    let i1 ← rd f2hf (2 * f)
    let i2 ← rd f2hf (2 * f + 1)
    check (decide (0 ≤ i1 ∧ 0 ≤ i2))
    let g1 ← rdI S.dg i1
    let g2 ← rdI S.dg i2
    .ok ((g1 - g2) * S.drho)
  else .ok 0

/-- `capFlux(f, n, pcflux, dpcflux)`.  Models: `SinglePointUpwindTwoPhase.hpp:704-714`. -/
def capFlux (S : Store) (f : Nat) (n0 n1 : Int) : M (Rat × Rat × Rat) := do
  check (decide (0 ≤ n0 ∧ 0 ≤ n1))
  let t ← rd S.trans f
  let p0 ← rdI S.pc n0
  let p1 ← rdI S.pc n1
  let d0 ← rdI S.dpc n0
  let d1 ← rdI S.dpc n1
  .ok (t * (p1 - p0), -t * d0, t * d1)

/-- What `upwindMobility` returns: `pix[a]` is false for side 0 and true for side 1. -/
structure Upwind where
  pix0 : Bool
  pix1 : Bool
  m0 : Rat
  m1 : Rat
  dm0 : Rat
  dm1 : Rat

/-- Mobility (or derivative) of phase `a` on the chosen side. -/
def onSide (l : List Rat) (n0 n1 : Int) (side : Bool) (a : Int) : M Rat := rdI l (2 * (if side then n1 else n0) + a)

/-- `upwindMobility`, selection of sides and mobilities.  Models: `SinglePointUpwindTwoPhase.hpp:631-657`. -/
def upwindSides (S : Store) (dflux gflux : Rat) (n0 n1 : Int) : M ((Bool × Bool) × (Rat × Rat)) :=
  if (¬ dflux < 0 ∧ ¬ gflux < 0) ∨ (¬ dflux > 0 ∧ ¬ gflux > 0) then do
    let pix0 := ! decide (¬ dflux < 0 ∧ ¬ gflux < 0)
    let m0 ← onSide S.mob n0 n1 pix0 0
    let pix1 := ! decide (¬ dflux - m0 * gflux < 0)
    let m1 ← onSide S.mob n0 n1 pix1 1
    .ok ((pix0, pix1), (m0, m1))
  else do
    let pix1 := ! decide (¬ dflux < 0 ∧ ¬ gflux > 0)
    let m1 ← onSide S.mob n0 n1 pix1 1
    let pix0 := ! decide (dflux + m1 * gflux > 0)
    let m0 ← onSide S.mob n0 n1 pix0 0
    .ok ((pix0, pix1), (m0, m1))

/-- `upwindMobility(dflux, gflux, n, pix, m, dm)`.  Models: `SinglePointUpwindTwoPhase.hpp:624-661`. -/
def upwindMobility (S : Store) (dflux gflux : Rat) (n0 n1 : Int) : M Upwind := do
  let u ← upwindSides S dflux gflux n0 n1
  let dm0 ← onSide S.dmob n0 n1 u.1.1 0
  let dm1 ← onSide S.dmob n0 n1 u.1.2 1
  .ok { pix0 := u.1.1, pix1 := u.1.2, m0 := u.2.1, m1 := u.2.2, dm0 := dm0, dm1 := dm1 }

/-- The contributions `J1`, `J2`, `F` of a connection. -/
structure Contrib where
  j1 : Rat
  j2 : Rat
  F : Rat

/-- Adds `v` to the entry of side `side`: `J[0]` is `J1` if the cell is the first side. -/
def Contrib.add (k : Contrib) (first side : Bool) (v : Rat) : Contrib :=
  if first != side then { k with j1 := k.j1 + v } else { k with j2 := k.j2 + v }

/-- The arithmetic of `fluxConnection`, given the upwind data.  Models: `SinglePointUpwindTwoPhase.hpp:387-421`. -/
def connection (u : Upwind) (dflux gflux d0 d1 dt : Rat) (first : Bool) : Contrib :=
  let mt := u.m0 + u.m1
  let sgn : Rat := if first then 1 else -1
  let dflux := dflux * sgn
  let gflux := gflux * sgn
  let f1 := u.m0 / mt
  let v1 := dflux + u.m1 * gflux
  let k : Contrib :=
    if first then { j1 := sgn * dt * f1 * d0 * u.m1, j2 := sgn * dt * f1 * d1 * u.m1, F := dt * f1 * v1 }
    else { j1 := sgn * dt * f1 * d1 * u.m1, j2 := sgn * dt * f1 * d0 * u.m1, F := dt * f1 * v1 }
  let k := k.add first u.pix0 (dt * (1 - f1) / mt * v1 * u.dm0)
  let k := k.add first u.pix1 (-(dt * f1 / mt * v1 * u.dm1))
  k.add first u.pix1 (dt * f1 * gflux * u.dm1)

/-- `fluxConnection(state, g, dt, c, f, J1, J2, F)`; the three targets hold zero.  Models: `SinglePointUpwindTwoPhase.hpp:363-422`. -/
def fluxConnection (I : Input) (f2hf : List Int) (S : Store) (flux : List Rat) (dt : Rat) (c f : Nat) : M Contrib := do
  let n0 ← rd I.G.faceCells (2 * f)
  let n1 ← rd I.G.faceCells (2 * f + 1)
  let dflux ← rd flux f
  let gf ← gravityFlux I.gravity.isSome f2hf S f
  let p ← capFlux S f n0 n1
  let u ← upwindMobility S dflux (gf + p.1) n0 n1
  check (decide (¬ (u.m0 < 0 ∨ u.m1 < 0)))
  check (decide (0 < u.m0 + u.m1))
  .ok (connection u dflux (gf + p.1) p.2.1 p.2.2 dt (decide (n0 = (c : Int))))

/-- `sourceTerms(g, src, i, dt, J, F)`; the two targets hold zero.  Models: `SinglePointUpwindTwoPhase.hpp:438-470`. -/
def sourceTerms (S : Store) (src : Sources.TSrc) (i : Nat) (dt : Rat) : M (Rat × Rat) := do
  let q ← rd src.flux i
  if -q < 0 then do
    let s ← rd src.saturation (2 * i)
    .ok (0, dt * -q * s)
  else do
    let c ← rd src.cell i
    let m0 ← rdI S.mob (2 * c)
    let m1 ← rdI S.mob (2 * c + 1)
    let d0 ← rdI S.dmob (2 * c)
    let d1 ← rdI S.dmob (2 * c + 1)
    check (decide (¬ (m0 < 0 ∨ m1 < 0)))
    check (decide (0 < m0 + m1))
    .ok (dt * -q * (((1 - m0 / (m0 + m1)) * d0 - m0 / (m0 + m1) * d1) / (m0 + m1)), dt * -q * (m0 / (m0 + m1)))

/-! ### Assembly -/

/-- `assembleBlock` of the matrix, for one unknown per cell.  Models: `CSRMatrixBlockAssembler.hpp:63-84`. -/
def addEntry (Y : Sys) (i j : Nat) (v : Rat) : M Sys := do
  let k ← SparseSys.elmIndex i j Y.ia Y.ja
  let sa ← addAt Y.sa k v
  .ok { Y with sa := sa }

/-- `assembleBlock` of the residual.  Models: `JacobianSystem.hpp:113-125`, `:168-179`. -/
def addResidual (Y : Sys) (i : Nat) (v : Rat) : M Sys := do
  let r ← addAt Y.res i v
  .ok { Y with res := r }

/-- The cells of `connections` in the order of the faces.  Models: `ImplicitAssembly.hpp:147-156`. -/
def neighbours (G : GridTopo) (c : Nat) : M (List Nat) := do
  let a ← rd G.cellFacepos c
  let b ← rd G.cellFacepos (c + 1)
  forRange a b (fun i l => do
    let f ← rd G.cellFaces i
    let c1 ← rd G.faceCells (2 * f)
    let c2 ← rd G.faceCells (2 * f + 1)
    .ok (if 0 ≤ c1 ∧ 0 ≤ c2 then l ++ [(if c1 = (c : Int) then c2 else c1).toNat] else l)) []

/-- `createRowStructure(g, c, sys)` with `createBlockRow`; sorting integers has one outcome.  Models: `ImplicitAssembly.hpp:136-160`, `CSRMatrixBlockAssembler.hpp:86-107`, `:152-176`. -/
def createRow (G : GridTopo) (c : Nat) (Y : Sys) : M Sys := do
  check (decide (c + 1 = Y.ia.length))
  let l ← neighbours G c
  let last ← rd Y.ia (Y.ia.length - 1)
  .ok { Y with ia := Y.ia ++ [last + (l.length + 1)], ja := Y.ja ++ (c :: l).insertionSort (· ≤ ·), sa := Y.sa ++ List.replicate (l.length + 1) 0 }

/-- `v.resize(n)`. -/
def resize (n : Nat) (v : List Rat) : List Rat := v.take n ++ List.replicate (n - v.length) 0

/-- `createSystem(g, sys)`.  Models: `ImplicitAssembly.hpp:56-84`, `JacobianSystem.hpp:234-243`, `CSRMatrixBlockAssembler.hpp:115-125`. -/
def createSystem (G : GridTopo) (Y : Sys) : M Sys :=
  loop G.nc (createRow G) { ia := [0], ja := [], sa := [], res := resize G.nc Y.res, inc := resize G.nc Y.inc, sol := resize G.nc Y.sol }

/-- The connection at position `i` of cell `c`, if it has one.  `compute` and `assemble` run the same loop; here both are done in one.
Models: `ImplicitAssembly.hpp:182-191`, `:217-235`. -/
def connectionPart (I : Input) (f2hf : List Int) (S : Store) (flux : List Rat) (dt : Rat) (c i : Nat) (Y : Sys) : M Sys := do
  let f ← rd I.G.cellFaces i
  let c1 ← rd I.G.faceCells (2 * f)
  let c2 ← rd I.G.faceCells (2 * f + 1)
  if 0 ≤ c1 ∧ 0 ≤ c2 then do
    let k ← fluxConnection I f2hf S flux dt c f
    let Y ← addEntry Y c c k.j1
    let Y ← addEntry Y c (if c1 = (c : Int) then c2 else c1).toNat k.j2
    addResidual Y c k.F
  else .ok Y

/-- `computeCellContrib` and `assembleCellContrib`.  The buffer between them is not modelled: it holds one `J1`, `J2` and `F` for each connection.
Models: `ImplicitAssembly.hpp:162-238`, `SinglePointUpwindTwoPhase.hpp:424-435`. -/
def cellContrib (I : Input) (f2hf : List Int) (S : Store) (flux : List Rat) (dt : Rat) (c : Nat) (Y : Sys) : M Sys := do
  let pv ← rd S.porevol c
  let ds ← rd S.ds c
  let Y ← addEntry Y c c pv
  let a ← rd I.G.cellFacepos c
  let b ← rd I.G.cellFacepos (c + 1)
  let Y ← forRange a b (connectionPart I f2hf S flux dt c) Y
  addResidual Y c (pv * ds)

/-- One source term.  Models: `ImplicitAssembly.hpp:249-261`. -/
def sourceContrib (S : Store) (src : Sources.TSrc) (dt : Rat) (i : Nat) (Y : Sys) : M Sys := do
  let k ← sourceTerms S src i dt
  let c ← rdI src.cell i
  if c < 0 then .error .ub
  else do
    let Y ← addEntry Y c.toNat c.toNat k.1
    addResidual Y c.toNat k.2

/-- Zeroing followed by `assemble(state, g, src, dt, sys)`.  Models: `ImplicitAssembly.hpp:86-104`, `ImplicitTransport.hpp:129-132`, `:173-175`. -/
def assemble (I : Input) (f2hf : List Int) (S : Store) (flux : List Rat) (src : Sources.TSrc) (dt : Rat) (Y : Sys) : M Sys := do
  let Y := { Y with sa := Y.sa.map (fun _ => (0 : Rat)), res := Y.res.map (fun _ => (0 : Rat)) }
  let Y ← loop I.G.nc (cellContrib I f2hf S flux dt) Y
  loop src.nsrc (sourceContrib S src dt) Y

/-! ### Newton's method -/

/-- `sat_tol_`.  Models: `SinglePointUpwindTwoPhase.hpp:292`. -/
def satTol : Rat := 1 / 100000

/-- `initStep(state, g, sys)`.  Models: `SinglePointUpwindTwoPhase.hpp:508-531`. -/
def initStep (I : Input) (sat : List Rat) (Y : Sys) : M Sys := do
  check (decide (Y.sol.length = I.G.nc))
  if I.guessPrevious then .ok { Y with sol := Y.sol.map (fun _ => (0 : Rat)) }
  else do
    let x ← loop I.G.nc (fun c x => do
      let s ← rd sat (2 * c)
      wr x c (1 / 2 - s)) Y.sol
    .ok { Y with sol := x }

/-- `std::min(s_max, std::max(s_min, s))`. -/
def clamp (lo hi s : Rat) : Rat := min hi (max lo s)

/-- One cell of `initIteration`.  Models: `SinglePointUpwindTwoPhase.hpp:548-577`. -/
def initCell (I : Input) (sat x : List Rat) (c : Nat) (r : Store × Bool) : M (Store × Bool) := do
  let xc ← rd x c
  let ds ← wr r.1.ds c xc
  let s ← rd sat (2 * c)
  let lo ← rd I.P.smin (2 * c)
  let hi ← rd I.P.smax (2 * c)
  let s0 := clamp lo hi (s + xc)
  let m ← mobility I.P c s0 (1 - s0)
  let p ← capillary I.P c s0 (1 - s0)
  let mob ← wr r.1.mob (2 * c) m.1.1
  let mob ← wr mob (2 * c + 1) m.1.2
  let dmob ← wr r.1.dmob (2 * c) m.2.1
  let dmob ← wr dmob (2 * c + 1) (-m.2.2)
  let pc ← wr r.1.pc c p.1
  let dpc ← wr r.1.dpc c p.2
  .ok ({ r.1 with ds := ds, mob := mob, dmob := dmob, pc := pc, dpc := dpc }, r.2 && ! decide (s + xc < lo - satTol ∨ s + xc > hi + satTol))

/-- `initIteration(state, g, sys)`.  Models: `SinglePointUpwindTwoPhase.hpp:534-583`. -/
def initIteration (I : Input) (sat x : List Rat) (S : Store) : M (Store × Bool) :=
  loop I.G.nc (initCell I sat x) (S, true)

/-- `VNorm<vector_type>::norm(v)` for the maximum norm.  Models: `NormSupport.hpp:47-57`, `:86-95`. -/
def norm (v : List Rat) : Rat := v.foldl (fun x y => max |x| |y|) 0

/-- The variables of the line search. -/
structure Search where
  store : Store
  sys : Sys
  linIt : Int
  alpha : Rat

/-- One pass of the line search; the flag says whether to go on.  Models: `ImplicitTransport.hpp:165-194`. -/
def searchStep (I : Input) (f2hf : List Int) (st : State) (src : Sources.TSrc) (dt : Rat) (normRes : Rat) (xOld dxOld : List Rat) (q : Search) : M (Search × Bool) := do
  let alpha := q.alpha / 2
  let inc := dxOld.map (· * alpha)
  let sol := List.zipWith (· + ·) inc xOld
  let r ← initIteration I st.saturation sol q.store
  let Y ← if r.2 then assemble I f2hf r.1 st.faceflux src dt { q.sys with inc := inc, sol := sol } else .ok { q.sys with inc := inc, sol := sol }
  let residual : Rat := if r.2 then norm Y.res else 10 ^ 99
  .ok ({ store := r.1, sys := Y, linIt := q.linIt + 1, alpha := alpha }, ! decide (residual < normRes ∨ q.linIt > I.ctrl.maxItLs))

/-- The line search, skipped if the residual is small.  At most `max_it_ls + 2` passes, and at least one.  Models: `ImplicitTransport.hpp:157-194`. -/
def search (I : Input) (f2hf : List Int) (st : State) (src : Sources.TSrc) (dt : Rat) (normRes : Rat) (store : Store) (Y : Sys) : M Search :=
  if normRes < I.ctrl.atol then .ok { store := store, sys := Y, linIt := 0, alpha := 2 }
  else whileFuel ((I.ctrl.maxItLs + 2).toNat + 1) (searchStep I f2hf st src dt normRes Y.sol Y.inc) { store := store, sys := Y, linIt := 0, alpha := 2 }

/-- The variables of the Newton iteration. -/
structure Iter where
  store : Store
  sys : Sys
  rpt : Report

/-- One Newton iteration; the flag says whether to go on.  `ls A b` is the answer of the linear solver.  Models: `ImplicitTransport.hpp:143-206`. -/
def newtonStep (ls : Sys → List Rat) (I : Input) (f2hf : List Int) (st : State) (src : Sources.TSrc) (dt : Rat) (res0 : Rat) (k : Iter) : M (Iter × Bool) := do
  let inc := (ls k.sys).map (fun x => -x)
  let q ← search I f2hf st src dt k.rpt.normRes k.store { k.sys with inc := inc }
  let rpt : Report := { nit := k.rpt.nit + 1, flag := k.rpt.flag, normRes := norm q.sys.res, normDx := norm inc }
  .ok ({ store := q.store, sys := q.sys, rpt := rpt },
    ! decide (rpt.normRes < I.ctrl.atol ∨ rpt.normRes < I.ctrl.rtol * res0 ∨ rpt.normDx < I.ctrl.dxtol ∨ q.linIt > I.ctrl.maxItLs ∨ rpt.nit = I.ctrl.maxIt))

/-- `finishStep(g, x, state)`.  Models: `SinglePointUpwindTwoPhase.hpp:598-621`. -/
def finishStep (I : Input) (x sat : List Rat) : M (List Rat) :=
  loop I.G.nc (fun c sat => do
    let s ← rd sat (2 * c)
    let xc ← rd x c
    let lo ← rd I.P.smin (2 * c)
    let hi ← rd I.P.smax (2 * c)
    let sat ← wr sat (2 * c) (clamp lo hi (s + xc))
    wr sat (2 * c + 1) (1 - clamp lo hi (s + xc))) sat

/-- The convergence flag.  Models: `ImplicitTransport.hpp:210-213`. -/
def flagOf (C : Control) (res0 : Rat) (r : Report) : Int :=
  if r.normRes < C.atol then 1 else if r.normRes < C.rtol * res0 then 2 else if r.normDx < C.dxtol then 3 else -1

/-- `ImplicitTransport::solve`.  Models: `ImplicitTransport.hpp:114-214`. -/
def newton (fuel : Nat) (ls : Sys → List Rat) (I : Input) (f2hf : List Int) (store : Store) (Y : Sys) (src : Sources.TSrc) (dt : Rat) (st : State) : M (Iter × State) := do
  let Y ← createSystem I.G Y
  let Y ← initStep I st.saturation Y
  let r ← initIteration I st.saturation Y.sol store
  let Y ← assemble I f2hf r.1 st.faceflux src dt Y
  let k ← whileFuel fuel (newtonStep ls I f2hf st src dt (norm Y.res)) { store := r.1, sys := Y, rpt := { nit := 0, flag := 0, normRes := norm Y.res, normDx := -1 } }
  let sat ← finishStep I k.sys.sol st.saturation
  .ok ({ k with rpt := { k.rpt with flag := flagOf I.ctrl (norm Y.res) k.rpt } }, { st with saturation := sat })

/-- The source term of one cell.  Models: `TransportSolverTwophaseImplicit.cpp:83-93`. -/
def addSource (J : Sources.Junk) (source pressure : List Rat) (c : Nat) (src : Sources.TSrc) : M Sources.TSrc := do
  let q ← rd source c
  if q > 0 then do
    let p ← rd pressure c
    let r ← src.append J c 2 p q [1, 0] [0, 0]
    if r.1 = 0 then .error .thrown else .ok r.2
  else if q < 0 then do
    let p ← rd pressure c
    let r ← src.append J c 2 p q [0, 0] [0, 0]
    if r.1 = 0 then .error .thrown else .ok r.2
  else .ok src

/-- `TransportSolverTwophaseImplicit::solve(porevolume, source, dt, state)`.  The report is only printed; the model returns it.  Models: `TransportSolverTwophaseImplicit.cpp:69-99`. -/
def solve (J : Sources.Junk) (fuel : Nat) (ls : Sys → List Rat) (I : Input) (porevolume source : List Rat) (dt : Rat) (S : Solver) (st : State) : M (Solver × State × Report) := do
  let v ← rd porevolume 0
  if v ≠ S.pv0 then .error .thrown
  else do
    let src ← loop I.G.nc (addSource J source st.pressure) S.tsrc.clear
    let r ← newton fuel ls I S.f2hf S.store S.sys src dt st
    .ok ({ S with store := r.1.store, sys := r.1.sys, tsrc := src }, r.2, r.1.rpt)

end Opm.ImplicitTransport
