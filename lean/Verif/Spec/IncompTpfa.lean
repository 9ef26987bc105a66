import Verif.Model.IncompTpfa
import Verif.Props.Trans
import Verif.Spec.MiscUtil
import Verif.Spec.IfsTpfa
/-!
# The pressure solver for incompressible fluids: specification
-/

namespace Opm.IncompTpfa
open Opm Opm.IfsTpfa Opm.Rock

/-- Half-transmissibility of face `f` seen from cell `c`. -/
def halfTrans (I : Input) (c f : Nat) : Rat := |dotN I.geo.d (I.geo.dist c f) (I.geo.Kn I.perm c f)| / dotN I.geo.d (I.geo.dist c f) (I.geo.dist c f)

/-- Total mobility of cell `c` at the saturations `s`. -/
def lam (I : Input) (s : List Rat) (c : Nat) : Rat := MiscUtil.totalMobility I.fluid I.cells s c

/-- Density of the flowing fluid in cell `c`: phases weighted by mobility. -/
def rho (I : Input) (s : List Rat) (c : Nat) : Rat :=
  (∑ p ∈ Finset.range I.fluid.np, MiscUtil.mobility I.fluid I.cells s c p * I.fluid.density.getD p 0) / lam I s c

/-- Weight of the fluid between the centre of cell `c` and that of its face `f`. -/
def head (I : Input) (s : List Rat) (c f : Nat) : Rat :=
  match I.gravity with
  | none => 0
  | some g => rho I s c * dotN I.geo.d (fun j => g.getD j 0) (I.geo.dist c f)

/-- `t` is the transmissibility of face `f` at the saturations `s`: the harmonic combination of mobility times half-transmissibility of its sides. -/
def IsFaceTrans (I : Input) (s : List Rat) (f : Nat) (t : Rat) : Prop :=
  (∀ a b : Nat, I.G.Sides f a b → t = harmonic (lam I s a * halfTrans I a f) (lam I s b * halfTrans I b f)) ∧
  (∀ c : Nat, I.G.Sides f c (-1) ∨ I.G.Sides f (-1) c → t = lam I s c * halfTrans I c f)

/-- Pressure difference between perforation `i` of well `w`, in cell `c`, and the reference depth of the well. -/
def offset (I : Input) (W : Wells.W) (s : List Rat) (w c : Nat) : Rat :=
  MiscUtil.mixDensity I.fluid.np (I.fluid.np * c) s I.fluid.density * (I.geo.cellCentroids.getD (3 * c + 2) 0 - W.depthRef.getD w 0) *
    (match I.gravity with
      | none => 0
      | some g => g.getD 2 0)

/-- Meshes, rocks and fluids the solver can handle: every face has a cell, and the permeability conducts from each cell centre to each of its face centres. -/
structure InputOk (I : Input) : Prop where
  valid : I.G.Valid
  first : I.G.cellFacepos[0]? = some 0
  nonempty : 0 < I.G.nc
  sided : ∀ f, f < I.G.nf → ¬ I.G.Sides f (-1) (-1)
  sizes : Trans.HtransData I.G I.geo I.perm
  dim : I.geo.d ≠ 0
  conducts : ∀ c f i, I.G.HalfFace c f i → dotN I.geo.d (I.geo.dist c f) (I.geo.Kn I.perm c f) ≠ 0
  fluid : I.fluid.Ok
  gravity : ∀ g, I.gravity = some g → I.geo.d ≤ g.length
  src : I.src = [] ∨ I.G.nc ≤ I.src.length
  bcs : ∀ bc, I.bcs = some bc → BcOk I.G bc

/-- Rock data the solver can handle: multiplier `m` and compressibility `k`, both positive. -/
structure RockOk (I : Input) (r : RockComp) (m k : Rat → Rat) : Prop where
  mult : ∀ p, r.poroMult p = .ok (m p)
  comp : ∀ p, r.rockComp p = .ok (k p)
  multPos : ∀ p, 0 < m p
  compPos : ∀ p, 0 < k p
  vol : I.G.nc ≤ I.vol.length
  porosity : I.G.nc ≤ I.porosity.length
  volPos : ∀ c, c < I.G.nc → 0 < I.vol.getD c 0
  porosityPos : ∀ c, c < I.G.nc → 0 < I.porosity.getD c 0

/-- Wells the solver can handle: in three dimensions, with perforations of nonnegative well index, and as many phases as the fluid. -/
structure WellsFit (I : Input) (W : Wells.W) : Prop where
  ok : WellsOk I.G W
  depth : W.nw ≤ W.depthRef.length
  phases : W.np = I.fluid.np
  perfs : 0 < numPerf W
  wi : ∀ i, i < numPerf W → 0 ≤ W.wi.getD i 0
  space : I.geo.d = 3

/-- States of the right sizes, with something that flows in every cell. -/
structure StateOk (I : Input) (W : Option Wells.W) (st : State) : Prop where
  saturation : st.saturation.length = I.G.nc * I.fluid.np
  pressure : st.pressure.length = I.G.nc
  faceflux : st.faceflux.length = I.G.nf
  wells : ∀ W', W = some W' → st.bhp.length = W'.nw ∧ st.perfRates.length = numPerf W'
  flows : ∀ c, c < I.G.nc → 0 < lam I st.saturation c

/-- The wells may get other controls, but not other perforations. -/
def SamePerfs : Option Wells.W → Option Wells.W → Prop
  | none, none => True
  | some W, some W0 => W.nw = W0.nw ∧ W.connpos = W0.connpos ∧ W.cells = W0.cells
  | _, _ => False

/-- The linear solver finds a solution of every system that has one. -/
def Exact (ls : Data → List Rat) : Prop := ∀ h, (ls h).length = h.A.m ∧ ((∃ x : List Rat, x.length = h.A.m ∧ Solves h (fun k => x.getD k 0)) → Solves h (fun k => (ls h).getD k 0))

/-- The explicit source of cell `c`. -/
def source (I : Input) (c : Nat) : Rat := I.src.getD c 0

/-- What the wells put into cell `c` at the given rates of perforations. -/
def fromWells (W : Option Wells.W) (q : List Rat) (c : Nat) : Rat :=
  match W with
  | none => 0
  | some W => wellInflow W (fun i => q.getD i 0) c

/-- Cell `c` is linked to something that fixes its pressure: a pressure condition or a perforation of a well at given pressure, over faces and perforations of rate wells. -/
inductive Linked (I : Input) (W : Option Wells.W) : Nat → Prop where
  | cond {bc : FlowBc.Bcs} {v : Rat} {f c : Nat} (hB : I.bcs = some bc) (hc : HasCond bc .pressure v f) (hs : I.G.Sides f c (-1) ∨ I.G.Sides f (-1) c) : Linked I W c
  | bhp {W' : Wells.W} {w i c : Nat} {p : Rat} (hW : W = some W') (hw : w < W'.nw) (hm : HasMode W' w (.bhp p)) (hi : IsPerf W' w i c) (ht : 0 < W'.wi.getD i 0) : Linked I W c
  | face {f a b : Nat} (hs : I.G.Sides f a b ∨ I.G.Sides f b a) (ha : Linked I W a) : Linked I W b
  | well {W' : Wells.W} {w i j a b : Nat} {q : Rat} (hW : W = some W') (hw : w < W'.nw) (hm : HasMode W' w (.rate q)) (hi : IsPerf W' w i a) (hj : IsPerf W' w j b)
      (hti : 0 < W'.wi.getD i 0) (htj : 0 < W'.wi.getD j 0) (ha : Linked I W a) : Linked I W b

/-- Every well has a perforation with a positive well index. -/
def AllPerforated (W : Option Wells.W) : Prop := ∀ W' w, W = some W' → w < W'.nw → ∃ i c, IsPerf W' w i c ∧ 0 < W'.wi.getD i 0

/-- Fluxes obey Darcy's law between neighbours, and the boundary conditions. -/
structure Darcy (I : Input) (s : List Rat) (st : State) : Prop where
  darcy : ∀ f (a b : Nat), I.G.Sides f a b → ∃ t, IsFaceTrans I s f t ∧ 0 < t ∧
    st.faceflux.getD f 0 = t * ((st.pressure.getD a 0 + head I s a f) - (st.pressure.getD b 0 + head I s b f))
  pressureCond : ∀ bc v f, I.bcs = some bc → HasCond bc .pressure v f → ∀ c : Nat, ∃ t, IsFaceTrans I s f t ∧
    (I.G.Sides f c (-1) → st.faceflux.getD f 0 = t * (st.pressure.getD c 0 - v)) ∧ (I.G.Sides f (-1) c → st.faceflux.getD f 0 = t * (v - st.pressure.getD c 0))
  fluxCond : ∀ bc v f, I.bcs = some bc → HasCond bc .fluxTotvol v f → ∀ c : Nat,
    (I.G.Sides f c (-1) → st.faceflux.getD f 0 = -v) ∧ (I.G.Sides f (-1) c → st.faceflux.getD f 0 = v)
  closed : ∀ f, f < I.G.nf → ¬ I.G.Interior f → (∀ bc ty v, I.bcs = some bc → HasCond bc ty v f → ty = .noflow) → st.faceflux.getD f 0 = 0

/-- What leaves a cell is its source, plus what the wells put in, minus the storage `acc c`. -/
def Balanced (I : Input) (W : Option Wells.W) (acc : Nat → Rat) (st : State) : Prop :=
  ∀ c, c < I.G.nc → I.G.netOutflow (fun f => st.faceflux.getD f 0) c = source I c + fromWells W st.perfRates c - acc c

/-- Pore volume of cell `c` at pressure `p`, with the multiplier `m`. -/
def poreVolume (I : Input) (m : Rat → Rat) (c : Nat) (p : Rat) : Rat := I.porosity.getD c 0 * I.vol.getD c 0 * m p

/-- Wells do what their controls say; `off w i c` is the pressure difference between perforation `i` and the reference depth. -/
structure WellsSolved (I : Input) (W : Wells.W) (s : List Rat) (off : Nat → Nat → Nat → Rat) (st' : State) : Prop where
  bhp : ∀ w t, w < W.nw → HasMode W w (.bhp t) → st'.bhp.getD w 0 = t
  rate : ∀ w q, w < W.nw → HasMode W w (.rate q) → wellOutflow W (fun i => st'.perfRates.getD i 0) w = q
  perf : ∀ w, w < W.nw → ¬ HasMode W w .shut → ∀ i c, IsPerf W w i c →
    st'.perfRates.getD i 0 = lam I s c * W.wi.getD i 0 * (st'.bhp.getD w 0 + off w i c - st'.pressure.getD c 0)
  shut : ∀ w, w < W.nw → HasMode W w .shut → ∀ i c, IsPerf W w i c → st'.perfRates.getD i 0 = 0

/-- What may be true of the pressures a solve with rock compressibility returns.  `p0` are the pressures it started from, `m` and `k` multiplier and compressibility. -/
inductive Accepted (I : Input) (W : Option Wells.W) (s : List Rat) (off : Wells.W → Nat → Nat → Nat → Rat) (m k : Rat → Rat) (dt : Rat) (p0 : List Rat) (st' : State) : Prop where
  /-- The nonlinear balance holds up to the tolerance. -/
  | residual (acc : Nat → Rat) (hb : Balanced I W acc st')
      (ha : ∀ c, c < I.G.nc → |acc c - (poreVolume I m c (st'.pressure.getD c 0) - poreVolume I m c (p0.getD c 0)) / dt| ≤ I.residualTol)
      (hw : ∀ V, W = some V → WellsSolved I V s (off V) st' ∧ ∀ w, w < V.nw → HasMode V w .shut → st'.bhp.getD w 0 = 0) : Accepted I W s off m k dt p0 st'
  /-- The balance holds with pore volumes linearised at pressures `old` that differ by at most the tolerance. -/
  | change (old : Nat → Rat) (hd : ∀ c, c < I.G.nc → |st'.pressure.getD c 0 - old c| ≤ I.changeTol)
      (hb : Balanced I W (fun c => (poreVolume I m c (old c) + poreVolume I m c (old c) * k (old c) * (st'.pressure.getD c 0 - old c) - poreVolume I m c (p0.getD c 0)) / dt) st')
      (hw : ∀ V, W = some V → WellsSolved I V s (off V) st' ∧ ∀ w, w < V.nw → HasMode V w .shut → st'.bhp.getD w 0 = 0) : Accepted I W s off m k dt p0 st'
  /-- There are wells, and the pressures given were good enough. -/
  | untouched (hW : W ≠ none) (hp : ∀ c, c < I.G.nc → st'.pressure.getD c 0 = p0.getD c 0) : Accepted I W s off m k dt p0 st'

/-- A solver object after any number of successful calls; with rock compressibility, the wells of each call must have perforations with positive well indices.  `first` is what the first call got: the wells with their reference depths, and the saturations. -/
inductive Used (junk : Nat → Nat) (jd : Nat → Rat) (ls : Data → List Rat) (I : Input) (W0 : Option Wells.W) : Option (Option Wells.W × List Rat) → Solver → Prop where
  | made {S : Solver} (h : make junk jd I W0 = .ok S) : Used junk jd ls I W0 none S
  | called {first : Option (Option Wells.W × List Rat)} {S S' : Solver} {W : Option Wells.W} {dt : Rat} {st st' : State} (h : Used junk jd ls I W0 first S)
      (hW : ∀ W', W = some W' → WellsFit I W') (hs : SamePerfs W W0) (hst : StateOk I W st) (hdt : 0 < dt)
      (ha : I.active = true → AllPerforated W ∧ (W = none → st.bhp = [])) (hc : solve ls I W dt S st = .ok (S', st')) :
      Used junk jd ls I W0 (some (first.getD (W, st.saturation))) S'

/-- The offsets a call uses: those of the first call. -/
def usedOffset (I : Input) (first : Option (Option Wells.W × List Rat)) (W : Wells.W) (s : List Rat) (w c : Nat) : Rat :=
  match first with
  | some (some W1, s1) => offset I W1 s1 w c
  | _ => offset I W s w c

end Opm.IncompTpfa
