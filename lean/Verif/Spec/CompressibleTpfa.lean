import Verif.Model.CompressibleTpfa
import Verif.Spec.CfsTpfa
import Verif.Props.Trans
/-!
# The pressure solver for compressible fluids: specification
-/

namespace Opm.CompressibleTpfa
open Opm Opm.CfsTpfa
open _root_.Opm.IfsTpfa (numPerf numWells)

/-- Half-transmissibility of face `f` seen from cell `c`. -/
def halfTrans (I : Input) (c f : Nat) : Rat := |dotN I.geo.d (I.geo.dist c f) (I.geo.Kn I.perm c f)| / dotN I.geo.d (I.geo.dist c f) (I.geo.dist c f)

/-- Acceleration of gravity along the last coordinate, the depth. -/
def grav (I : Input) : Rat :=
  match I.gravity with
  | none => 0
  | some g => g.getD (I.geo.d - 1) 0

/-- Depth of the centre of a cell, of a face. -/
def cellDepth (I : Input) (c : Nat) : Rat := I.geo.cellCentroids.getD (c * I.geo.d + (I.geo.d - 1)) 0
def faceDepth (I : Input) (f : Nat) : Rat := I.geo.faceCentroids.getD (f * I.geo.d + (I.geo.d - 1)) 0

/-- The `n` numbers of point `k`. -/
def point (l : List Rat) (k n : Nat) : List Rat := (l.drop (k * n)).take n

/-- Fluid matrix, its derivative, and mobilities in cell `c` at the state `st`. -/
def matrixAt (I : Input) (st : State) (c : Nat) : Block := I.fluid.matrix (st.pressure.getD c 0) (point st.surfacevol c I.fluid.np) c
def dmatrixAt (I : Input) (st : State) (c : Nat) : Block := I.fluid.dmatrix (st.pressure.getD c 0) (point st.surfacevol c I.fluid.np) c
def mobilityAt (I : Input) (st : State) (c p : Nat) : Rat :=
  I.fluid.relperm (point st.saturation c I.fluid.np) c p / I.fluid.viscosity (st.pressure.getD c 0) (point st.surfacevol c I.fluid.np) c p

/-- Density of phase `p` in cell `c`. -/
def densityAt (I : Input) (st : State) (c p : Nat) : Rat := I.fluid.density ((List.range (I.fluid.np * I.fluid.np)).map (matrixAt I st c)) p

/-- Weight of phase `p` between the centres of cell `c` and face `f`. -/
def head (I : Input) (st : State) (c f p : Nat) : Rat := densityAt I st c p * ((faceDepth I f - cellDepth I c) * grav I)

/-- Pressure of phase `p` of cell `c`, continued to the centre of face `f`. -/
def potential (I : Input) (st : State) (c f p : Nat) : Rat := st.pressure.getD c 0 + head I st c f p

/-- Pressure difference between a perforation in cell `c` and the reference depth of its well `w`. -/
def offset (I : Input) (W : Wells.W) (st : State) (w c : Nat) : Rat :=
  ∑ p ∈ Finset.range I.fluid.np, st.saturation.getD (c * I.fluid.np + p) 0 * densityAt I st c p * grav I * (cellDepth I c - W.depthRef.getD w 0)

/-- The rule for the cell that provides the properties of the face between `a` and `b`: the first phase whose potentials differ decides for all phases. -/
def FirstPhaseRule (I : Input) (st : State) (f a b u : Nat) : Prop :=
  ((∃ p, p < I.fluid.np ∧ potential I st a f p < potential I st b f p ∧ ∀ q, q < p → potential I st a f q = potential I st b f q) → u = b) ∧
  ((¬ ∃ p, p < I.fluid.np ∧ potential I st a f p < potential I st b f p ∧ ∀ q, q < p → potential I st a f q = potential I st b f q) → u = a)

/-- The cell upstream of the face between `a` and `b` for phase `p`. -/
def Upstream (I : Input) (st : State) (f a b p u : Nat) : Prop := (potential I st a f p < potential I st b f p → u = b) ∧ (potential I st b f p < potential I st a f p → u = a)

/-- Meshes, rocks and fluids the solver can handle: every face has a cell, the permeability conducts from each cell centre to each of its face centres, fluid matrices can be inverted, and
viscosities are not zero. -/
structure InputOk (I : Input) : Prop where
  valid : I.G.Valid
  first : I.G.cellFacepos[0]? = some 0
  nonempty : 0 < I.G.nc
  sided : ∀ f, f < I.G.nf → ¬ I.G.Sides f (-1) (-1)
  sizes : Trans.HtransData I.G I.geo I.perm
  dim : I.geo.d ≠ 0
  conducts : ∀ c f i, I.G.HalfFace c f i → dotN I.geo.d (I.geo.dist c f) (I.geo.Kn I.perm c f) ≠ 0
  gravity : ∀ g, I.gravity = some g → I.geo.d ≤ g.length
  vol : I.G.nc ≤ I.vol.length
  porosity : I.G.nc ≤ I.porosity.length
  regular : ∀ p z c, c < I.G.nc → Regular I.fluid.np (I.fluid.matrix p z c)
  viscous : ∀ p z c q, q < I.fluid.np → I.fluid.viscosity p z c q ≠ 0

/-- The pore volume multiplier is `m` and the rock compressibility `k`; without active rock data there is nothing to multiply and no compressibility. -/
structure RockIs (I : Input) (m k : Rat → Rat) : Prop where
  rigid : activeRock I = none → ∀ p, m p = 1 ∧ k p = 0
  active : ∀ r, activeRock I = some r → (∀ p, r.poroMult p = .ok (m p)) ∧ ∀ p, r.rockComp p = .ok (k p)

/-- Pore volume of cell `c` at pressure `p`. -/
def poreVolume (I : Input) (m : Rat → Rat) (c : Nat) (p : Rat) : Rat := I.porosity.getD c 0 * I.vol.getD c 0 * m p

/-- Wells the solver can handle. -/
structure WellsFit (I : Input) (W : Wells.W) : Prop where
  perfs : PerfsOk I.G W
  wi : numPerf W ≤ W.wi.length
  mode : ∀ w, w < W.nw → ∃ m, HasMode I.fluid.np W w m
  np : W.np = I.fluid.np
  np3 : W.np ≤ 3
  depth : W.nw ≤ W.depthRef.length
  type : W.nw ≤ W.type.length
  frac : W.nw * I.fluid.np ≤ W.compFrac.length
  one : ∀ w, w < W.nw → W.type[w]? = some .injector → |(point W.compFrac w I.fluid.np).sum - 1| < 1 / 1000000

/-- States of the right sizes. -/
structure StateOk (I : Input) (W : Option Wells.W) (st : State) : Prop where
  pressure : st.pressure.length = I.G.nc
  surfacevol : st.surfacevol.length = I.G.nc * I.fluid.np
  saturation : st.saturation.length = I.G.nc * I.fluid.np
  faceflux : st.faceflux.length = I.G.nf
  facepressure : st.facepressure.length = I.G.nf
  wells : ∀ V, W = some V → st.bhp.length = V.nw ∧ st.perfRates.length = numPerf V ∧ st.perfPress.length = numPerf V

/-- Something flows in every cell, whatever the pressure. -/
def Flows (I : Input) (st : State) : Prop :=
  ∀ c p, c < I.G.nc → ∑ q ∈ Finset.range I.fluid.np, I.fluid.relperm (point st.saturation c I.fluid.np) c q / I.fluid.viscosity p (point st.surfacevol c I.fluid.np) c q ≠ 0

/-- The wells may get other controls, but not other perforations. -/
def SamePerfs : Option Wells.W → Option Wells.W → Prop
  | none, none => True
  | some W, some W0 => W.nw = W0.nw ∧ W.connpos = W0.connpos ∧ W.cells = W0.cells
  | _, _ => False

/-- Matrix and mobilities of perforation `k` of well `w`: those of the cell for producers, those of the injected fluid at the pressure of the perforation for injectors. -/
structure PerfIs (I : Input) (W : Wells.W) (D : Completions) (st : State) (w k : Nat) : Prop where
  producer : W.type[w]? = some .producer → (∀ p, p < I.fluid.np → ent D.phasemob I.fluid.np k p = mobilityAt I st (perfCell W k) p) ∧
    ∀ i j, i < I.fluid.np → j < I.fluid.np → elm D.A I.fluid.np k i j = matrixAt I st (perfCell W k) (j * I.fluid.np + i)
  injector : W.type[w]? = some .injector → (∀ p, p < I.fluid.np → ent D.phasemob I.fluid.np k p =
      I.fluid.relperm (point W.compFrac w I.fluid.np) (perfCell W k) p / I.fluid.viscosity (st.bhp.getD w 0 + D.wdp.getD k 0) (point W.compFrac w I.fluid.np) (perfCell W k) p) ∧
    ∀ i j, i < I.fluid.np → j < I.fluid.np → elm D.A I.fluid.np k i j = I.fluid.matrix (st.bhp.getD w 0 + D.wdp.getD k 0) (point W.compFrac w I.fluid.np) (perfCell W k) (j * I.fluid.np + i)

/-- `K` are the arguments of the assembly for a step of length `dt` from `st0`, with the properties of fluids and rock at `st`. -/
structure Current (I : Input) (W : Option Wells.W) (m : Rat → Rat) (dt : Rat) (st0 st : State) (K : CfsTpfa.Input) : Prop where
  G : K.G = I.G
  dt : K.dt = dt
  np : K.cq.np = I.fluid.np
  zc : K.zc = st.surfacevol
  cpress : K.cpress = st.pressure
  wpress : K.wpress = st.bhp
  src : K.F.src = none
  cells : ∀ c i j, c < I.G.nc → i < I.fluid.np → j < I.fluid.np →
    elm K.cq.Ac I.fluid.np c i j = matrixAt I st c (j * I.fluid.np + i) ∧ elm K.cq.dAc I.fluid.np c i j = dmatrixAt I st c (j * I.fluid.np + i)
  trans : ∀ f, f < I.G.nf → 0 < K.trans.getD f 0 ∧ (∀ a b : Nat, I.G.Sides f a b → K.trans.getD f 0 = harmonic (halfTrans I a f) (halfTrans I b f))
  faces : ∀ f (a b : Nat), I.G.Sides f a b → (∀ p, p < I.fluid.np → ent K.gravcap I.fluid.np f p = head I st a f p - head I st b f p) ∧
    ∃ u, FirstPhaseRule I st f a b u ∧ (∀ p, p < I.fluid.np → ent K.cq.phasemobf I.fluid.np f p = mobilityAt I st u p) ∧
      ∀ i j, i < I.fluid.np → j < I.fluid.np → elm K.cq.Af I.fluid.np f i j = matrixAt I st u (j * I.fluid.np + i)
  porevol : ∀ c, c < I.G.nc → K.porevol.getD c 0 = poreVolume I m c (st0.pressure.getD c 0)
  none : W = none → K.F.wells = none
  wells : ∀ V, W = some V → ∃ D, K.F.wells = some (V, D) ∧ ∀ w k, w < V.nw → V.connpos.getD w 0 ≤ k → k < V.connpos.getD (w + 1) 0 →
    D.wdp.getD k 0 = offset I V st0 w (perfCell V k) ∧ PerfIs I V D st w k

/-- Unknown number `r` at a state. -/
def unknowns (I : Input) (st : State) (r : Nat) : Rat := if r < I.G.nc then st.pressure.getD r 0 else st.bhp.getD (r - I.G.nc) 0

/-- States with the same fluids. -/
def SameFluids (st st' : State) : Prop := st'.surfacevol = st.surfacevol ∧ st'.saturation = st.saturation

/-- A solver object after any number of calls that returned. -/
inductive Used (junk : Nat → Nat) (jd : Nat → Rat) (jc : Nat → Comp) (lu : Lapack) (ls : Data → List Rat) (I : Input) (W0 : Option Wells.W) : Solver → Prop where
  | made {S : Solver} (h : make junk jd jc I W0 = .ok S) : Used junk jd jc lu ls I W0 S
  | called {S S' : Solver} {W : Option Wells.W} {dt : Rat} {st st' : State} (h : Used junk jd jc lu ls I W0 S) (hW : ∀ V, W = some V → WellsFit I V) (hs : SamePerfs W W0)
      (hst : StateOk I W st) (hfl : Flows I st) (hc : solve lu ls I W dt S st = .ok (S', st')) : Used junk jd jc lu ls I W0 S'

/-- What is true of the state `st'` that a call for the state `st` returns: fluxes and rates are those at its pressures with properties at the state `d`, the last one assembled for. -/
structure Results (I : Input) (W : Option Wells.W) (st d st' : State) (K : CfsTpfa.Input) : Prop where
  fluids : SameFluids st st'
  flux : ∀ f, f < I.G.nf → (I.G.Interior f → st'.faceflux.getD f 0 = ∑ p ∈ Finset.range I.fluid.np, faceVel K (unknowns I st') 1 f p) ∧ (¬ I.G.Interior f → st'.faceflux.getD f 0 = 0)
  facepressure : ∀ f, f < I.G.nf → (∀ a b : Nat, I.G.Sides f a b →
      st'.facepressure.getD f 0 * (halfTrans I a f + halfTrans I b f) = halfTrans I a f * st'.pressure.getD a 0 + halfTrans I b f * st'.pressure.getD b 0) ∧
    (∀ c : Nat, I.G.Sides f c (-1) ∨ I.G.Sides f (-1) c → st'.facepressure.getD f 0 = st'.pressure.getD c 0)
  wells : ∀ V, W = some V → ∃ D, K.F.wells = some (V, D) ∧ ∀ w k, w < V.nw → V.connpos.getD w 0 ≤ k → k < V.connpos.getD (w + 1) 0 →
    st'.perfPress.getD k 0 = st'.bhp.getD w 0 + offset I V st w (perfCell V k) ∧
    (st'.pressure.getD (perfCell V k) 0 < st'.perfPress.getD k 0 → st'.perfRates.getD k 0 = ∑ p ∈ Finset.range I.fluid.np, perfVel K V D (unknowns I st') 1 w k p) ∧
    (st'.perfPress.getD k 0 ≤ st'.pressure.getD (perfCell V k) 0 → st'.perfRates.getD k 0 =
      V.wi.getD k 0 * (∑ p ∈ Finset.range I.fluid.np, mobilityAt I d (perfCell V k) p) * (st'.perfPress.getD k 0 - st'.pressure.getD (perfCell V k) 0))

/-- Why a call returned. -/
inductive Accepted (I : Input) (W : Option Wells.W) (m k : Rat → Rat) (ls : Data → List Rat) (st d st' : State) (K : CfsTpfa.Input) (sing : Bool) : Prop where
  /-- The pores are filled and controls are met up to the tolerance, at the pressures returned. -/
  | residual (hd : d.pressure = st'.pressure ∧ d.bhp = st'.bhp)
      (hc : ∀ c u, c < I.G.nc → Holds K c u → |poreVolume I m c (st'.pressure.getD c 0) - ∑ i ∈ Finset.range I.fluid.np, u i| ≤ I.residualTol)
      (hw : ∀ V D, K.F.wells = some (V, D) → ∀ w md, w < V.nw → HasMode I.fluid.np V w md → |wellRes K V D w md| ≤ I.residualTol) : Accepted I W m k ls st d st' K sing
  /-- No pressure changed by more than the tolerance in a Newton step. -/
  | change (h : Data) (ha : Assembled K (fun c => poreVolume I m c (d.pressure.getD c 0) - poreVolume I m c (st.pressure.getD c 0))
        (fun c => poreVolume I m c (d.pressure.getD c 0) * k (d.pressure.getD c 0)) h sing)
      (hx : ∀ r, r < I.G.nc + numWells W → unknowns I st' r = unknowns I d r - (ls h).getD r 0 ∧ |unknowns I st' r - unknowns I d r| ≤ I.changeTol) : Accepted I W m k ls st d st' K sing
  /-- No iterations were allowed. -/
  | idle (hm : I.maxiter ≤ 0) (hd : d.pressure = st.pressure ∧ d.bhp = st.bhp ∧ st'.pressure = st.pressure ∧ st'.bhp = st.bhp) : Accepted I W m k ls st d st' K sing

/-- Nothing fixes the level of the pressures: wells are operated at rates, neither the fluids in cells nor the pores change with pressure. -/
def Loose (I : Input) (m k : Rat → Rat) (st0 d : State) (K : CfsTpfa.Input) : Prop :=
  AllRate K ∧ Stiff K ∧ ∀ c, c < I.G.nc → poreVolume I m c (d.pressure.getD c 0) = poreVolume I m c (st0.pressure.getD c 0) ∧ k (d.pressure.getD c 0) = 0

/-- Why a call threw: at the last state it reached, some cell or well is off by more than the tolerance. -/
def Failed (I : Input) (W : Option Wells.W) (m k : Rat → Rat) (dt : Rat) (st : State) : Prop :=
  ∃ d K h sing, Current I W m dt st d K ∧ Assembled K (fun c => poreVolume I m c (d.pressure.getD c 0) - poreVolume I m c (st.pressure.getD c 0))
    (fun c => poreVolume I m c (d.pressure.getD c 0) * k (d.pressure.getD c 0)) h sing ∧ ∃ r, r < I.G.nc + numWells W ∧ I.residualTol < |res h r|

end Opm.CompressibleTpfa
