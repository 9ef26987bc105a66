import Verif.Spec.IfsTpfa
import Verif.Model.CfsTpfa
/-!
# Compressible flow: specification

Unknowns are numbered as in the matrix: pressures of cells, then of wells.
-/

namespace Opm.CfsTpfa
open Opm.SparseSys
open _root_.Opm.IfsTpfa (numPerf)

/-- The arguments of the assembly. -/
structure Input where
  G : GridTopo
  dt : Rat
  F : Forces
  zc : List Rat
  cq : Quantities
  trans : List Rat
  gravcap : List Rat
  cpress : List Rat
  wpress : List Rat
  porevol : List Rat

/-- Element `(i, j)` of matrix number `k`; matrices are stored in columns. -/
def elm (A : List Rat) (np k i j : Nat) : Rat := A.getD (k * (np * np) + (j * np + i)) 0

/-- Entry `i` of matrix number `k` times `v`. -/
def mul (A : List Rat) (np k : Nat) (v : Nat → Rat) (i : Nat) : Rat := ∑ j ∈ Finset.range np, elm A np k i j * v j

/-- Entry `p` of block number `k`. -/
def ent (a : List Rat) (np k p : Nat) : Rat := a.getD (k * np + p) 0

/-- The cell on the first, on the second side of a face. -/
def side1 (G : GridTopo) (f : Nat) : Nat := (G.faceCells.getD (2 * f) (-1)).toNat
def side2 (G : GridTopo) (f : Nat) : Nat := (G.faceCells.getD (2 * f + 1) (-1)).toNat

/-- The volume of phase `p` that flows through interior face `f` by Darcy's law; `x` are the pressures.  Gravity counts `g` times: once in the flux, not at all in its derivative. -/
def faceVel (I : Input) (x : Nat → Rat) (g : Rat) (f p : Nat) : Rat :=
  I.trans.getD f 0 * ent I.cq.phasemobf I.cq.np f p * (x (side1 I.G f) - x (side2 I.G f) + g * ent I.gravcap I.cq.np f p)

/-- The surface volume of component `i` that flows through face `f`; nothing flows through boundary faces. -/
def faceComp (I : Input) (x : Nat → Rat) (g : Rat) (i f : Nat) : Rat :=
  if 0 ≤ I.G.faceCells.getD (2 * f) (-1) ∧ 0 ≤ I.G.faceCells.getD (2 * f + 1) (-1) then mul I.cq.Af I.cq.np f (faceVel I x g f) i else 0

/-- The cell of a perforation. -/
def perfCell (W : Wells.W) (k : Nat) : Nat := (W.cells.getD k 0).toNat

/-- The volume of phase `p` that flows from perforation `k` of well `w` into the reservoir. -/
def perfVel (I : Input) (W : Wells.W) (D : Completions) (x : Nat → Rat) (g : Rat) (w k p : Nat) : Rat :=
  W.wi.getD k 0 * ent D.phasemob I.cq.np k p * (x (I.G.nc + w) - x (perfCell W k) + g * D.wdp.getD k 0)

/-- The surface volume of component `i` that flows from perforation `k` of well `w` into the reservoir. -/
def perfComp (I : Input) (W : Wells.W) (D : Completions) (x : Nat → Rat) (g : Rat) (w i k : Nat) : Rat := mul D.A I.cq.np k (perfVel I W D x g w k) i

/-- Well `w` has a current control. -/
def isOpen (W : Wells.W) (w : Nat) : Bool := match W.ctrls[w]? with
  | none => false
  | some c => decide (0 ≤ c.current)

/-- The surface volume of component `i` that open wells put into cell `c`. -/
def wellComp (I : Input) (x : Nat → Rat) (g : Rat) (i c : Nat) : Rat :=
  match I.F.wells with
  | none => 0
  | some (W, D) => ∑ w ∈ Finset.range W.nw, ∑ k ∈ Finset.Ico (W.connpos.getD w 0) (W.connpos.getD (w + 1) 0),
      if isOpen W w = true ∧ perfCell W k = c then perfComp I W D x g w i k else 0

/-- The volume supplied to cell `c` by explicit sources. -/
def srcVol (I : Input) (c : Nat) : Rat :=
  match I.F.src with
  | none => 0
  | some s => ∑ i ∈ Finset.range s.nsrc, if s.cell.getD i 0 = (c : Int) then s.flux.getD i 0 else 0

/-- The given pressures of cells and wells. -/
def given (I : Input) (r : Nat) : Rat := if r < I.G.nc then I.cpress.getD r 0 else I.wpress.getD (r - I.G.nc) 0

/-- `u` are the phase volumes, at the conditions of cell `c`, of what is in the cell after the step: what was there, less what flowed out through faces, plus what wells put in. -/
def Holds (I : Input) (c : Nat) (u : Nat → Rat) : Prop :=
  ∀ i, i < I.cq.np → mul I.cq.Ac I.cq.np c u i =
    I.porevol.getD c 0 * ent I.zc I.cq.np c i - I.dt * I.G.netOutflow (faceComp I (given I) 1 i) c + I.dt * wellComp I (given I) 1 i c

/-- `du` is the first-order change of these volumes when pressures change by `x`: mobilities and fluid matrices of faces and perforations are kept, the fluid matrix of the cell changes by its derivative. -/
def Changes (I : Input) (c : Nat) (u x du : Nat → Rat) : Prop :=
  ∀ i, i < I.cq.np → mul I.cq.Ac I.cq.np c du i + mul I.cq.dAc I.cq.np c u i * x c = -(I.dt * I.G.netOutflow (faceComp I x 0 i) c) + I.dt * wellComp I x 0 i c

/-- How a well is operated. -/
inductive Mode where
  | shut
  | bhp (p : Rat)
  | resv (d : Nat → Rat) (q : Rat)
  | surf (d : Nat → Rat) (q : Rat)

/-- Well `w` is operated in the given mode by its current control; the rate controls count component (phase) `p` with the factor `d p`. -/
def HasMode (np : Nat) (W : Wells.W) (w : Nat) (m : Mode) : Prop :=
  ∃ c, W.ctrls[w]? = some c ∧ match m with
    | .shut => c.current < 0
    | .bhp p => ∃ k : Nat, c.current = k ∧ c.type[k]? = some .bhp ∧ c.target[k]? = some p
    | .resv d q => ∃ k : Nat, c.current = k ∧ c.type[k]? = some .reservoirRate ∧ c.target[k]? = some q ∧ ∀ p, p < np → c.distr[k * np + p]? = some (d p)
    | .surf d q => ∃ k : Nat, c.current = k ∧ c.type[k]? = some .surfaceRate ∧ c.target[k]? = some q ∧ ∀ p, p < np → c.distr[k * np + p]? = some (d p)

/-- Sum over the perforations of a well. -/
def perfSum (W : Wells.W) (w : Nat) (f : Nat → Rat) : Rat := ∑ k ∈ Finset.Ico (W.connpos.getD w 0) (W.connpos.getD (w + 1) 0), f k

/-- Total connection transmissibility of a well. -/
def wellTrans (I : Input) (W : Wells.W) (D : Completions) (w : Nat) : Rat := perfSum W w fun k => ∑ p ∈ Finset.range I.cq.np, W.wi.getD k 0 * ent D.phasemob I.cq.np k p

/-- What is to vanish for well `w`, in units of volume. -/
def wellRes (I : Input) (W : Wells.W) (D : Completions) (w : Nat) : Mode → Rat
  | .shut => 0
  | .bhp p => I.dt * (wellTrans I W D w * (given I (I.G.nc + w) - p))
  | .resv d q => I.dt * (perfSum W w (fun k => ∑ p ∈ Finset.range I.cq.np, d p * perfVel I W D (given I) 1 w k p) - q)
  | .surf d q => I.dt * (perfSum W w (fun k => ∑ i ∈ Finset.range I.cq.np, d i * perfComp I W D (given I) 1 w i k) - q)

/-- How it changes with the pressures.  The pressure of a shut well does not matter; its equation keeps it. -/
def wellJac (I : Input) (W : Wells.W) (D : Completions) (w : Nat) (x : Nat → Rat) : Mode → Rat
  | .shut => I.dt * (wellTrans I W D w * x (I.G.nc + w))
  | .bhp _ => I.dt * (wellTrans I W D w * x (I.G.nc + w))
  | .resv d _ => I.dt * perfSum W w (fun k => ∑ p ∈ Finset.range I.cq.np, d p * perfVel I W D x 0 w k p)
  | .surf d _ => I.dt * perfSum W w (fun k => ∑ i ∈ Finset.range I.cq.np, d i * perfComp I W D x 0 w i k)

/-- A matrix, given in columns, has no kernel. -/
def Regular (np : Nat) (A : Nat → Rat) : Prop :=
  ∀ v : Nat → Rat, (∀ i, i < np → ∑ j ∈ Finset.range np, A (j * np + i) * v j = 0) → ∀ j, j < np → v j = 0

/-- LAPACK solves small systems with regular matrices. -/
def LapackOk (lu : Lapack) : Prop :=
  ∀ np A, Regular np A → ∃ s, lu np A = some s ∧ ∀ b i, i < np → ∑ j ∈ Finset.range np, A (j * np + i) * s b j = b i

/-- Wells the assembly can handle. -/
structure WellsOk (I : Input) (W : Wells.W) (D : Completions) : Prop where
  pos : RowPos W.nw W.connpos
  cell : ∀ i, i < numPerf W → ∃ c : Nat, W.cells[i]? = some (c : Int) ∧ c < I.G.nc
  wi : numPerf W ≤ W.wi.length
  mode : ∀ w, w < W.nw → ∃ m, HasMode I.cq.np W w m
  np : W.np = I.cq.np
  np3 : W.np ≤ 3
  wdp : numPerf W ≤ D.wdp.length
  A : numPerf W * (I.cq.np * I.cq.np) ≤ D.A.length
  mob : numPerf W * I.cq.np ≤ D.phasemob.length
  press : W.nw ≤ I.wpress.length

/-- Sources the assembly can handle. -/
structure SrcOk (I : Input) (s : Sources.CSrc) : Prop where
  np : s.nphases = I.cq.np
  cell : ∀ i, i < s.nsrc → ∃ c : Nat, s.cell[i]? = some (c : Int) ∧ c < I.G.nc
  flux : s.nsrc ≤ s.flux.length

/-- Arguments the assembly can handle: a valid mesh, arrays of the right sizes, fluid matrices of cells that can be inverted. -/
structure InputOk (I : Input) : Prop where
  valid : I.G.Valid
  first : I.G.cellFacepos[0]? = some 0
  nonempty : 0 < I.G.nc
  zc : I.G.nc * I.cq.np ≤ I.zc.length
  Ac : I.G.nc * (I.cq.np * I.cq.np) ≤ I.cq.Ac.length
  dAc : I.G.nc * (I.cq.np * I.cq.np) ≤ I.cq.dAc.length
  Af : I.G.nf * (I.cq.np * I.cq.np) ≤ I.cq.Af.length
  mob : I.G.nf * I.cq.np ≤ I.cq.phasemobf.length
  gravcap : I.G.nf * I.cq.np ≤ I.gravcap.length
  trans : I.G.nf ≤ I.trans.length
  cpress : I.G.nc ≤ I.cpress.length
  porevol : I.G.nc ≤ I.porevol.length
  regular : ∀ c, c < I.G.nc → Regular I.cq.np (fun j => I.cq.Ac.getD (c * (I.cq.np * I.cq.np) + j) 0)
  wells : ∀ W D, I.F.wells = some (W, D) → WellsOk I W D
  src : ∀ s, I.F.src = some s → SrcOk I s

/-- The wells, if any, have the perforations of the wells `Wc`. -/
def SameWells (F : Forces) (Wc : Option Wells.W) : Prop :=
  ∀ W D, F.wells = some (W, D) → ∃ W', Wc = some W' ∧ W.nw = W'.nw ∧ W.connpos = W'.connpos ∧ W.cells = W'.cells

/-- Wells for which the data can be constructed. -/
structure PerfsOk (G : GridTopo) (W : Wells.W) : Prop where
  pos : RowPos W.nw W.connpos
  cell : ∀ i, i < numPerf W → ∃ c : Nat, W.cells[i]? = some (c : Int) ∧ c < G.nc

/-- `h` is `h0` with other numbers. -/
structure SameShape (h0 h : Data) : Prop where
  J : h.J = h0.J
  sa : h.sys.sa.length = h0.sys.sa.length
  b : h.sys.b.length = h0.sys.b.length
  face : h.face.length = h0.face.length
  perf : h.perf.length = h0.perf.length
  scratch : h.scratch.length = h0.scratch.length

/-- `h` was made by `cfs_tpfa_res_construct` for this mesh and wells with the same perforations, and may have been used any number of times since. -/
def Made (G : GridTopo) (F : Forces) (h : Data) : Prop :=
  ∃ junk jd jc Wc h0, (∀ W, Wc = some W → PerfsOk G W) ∧ SameWells F Wc ∧ construct junk jd jc G Wc = .ok h0 ∧ SameShape h0 h

/-- Row `r` of the Jacobian times `x`. -/
def jac (h : Data) (x : Nat → Rat) (r : Nat) : Rat := IfsTpfa.rowDot h.J h.sys.sa x r

/-- Entry `r` of the residual. -/
def res (h : Data) (r : Nat) : Rat := h.sys.b.getD r 0

/-- The change of the fluid matrices with pressure makes no difference to the volume of what the cells hold, wells not counted. -/
def Stiff (I : Input) : Prop :=
  ∀ c, c < I.G.nc → ∀ u v : Nat → Rat,
    (∀ i, i < I.cq.np → mul I.cq.Ac I.cq.np c u i = I.porevol.getD c 0 * ent I.zc I.cq.np c i - I.dt * I.G.netOutflow (faceComp I (given I) 1 i) c) →
    (∀ i, i < I.cq.np → mul I.cq.Ac I.cq.np c v i = mul I.cq.dAc I.cq.np c u i) → ∑ i ∈ Finset.range I.cq.np, v i = 0

/-- All wells, if any, are operated at rates. -/
def AllRate (I : Input) : Prop := ∀ W D, I.F.wells = some (W, D) → ∀ w, w < W.nw → ∃ d q, HasMode I.cq.np W w (.resv d q) ∨ HasMode I.cq.np W w (.surf d q)

/-- `h` holds the residual of the volume balance and its linearisation.  The volume in cell `c` not accounted for is the pore volume less the volume of what the cell holds and of explicit
sources.  `extra c` and `slope c` are additional volume and its derivative by the pressure of the cell.  If the system was adjusted, element `(0, 0)` is twice the element `e` it should be. -/
structure Assembled (I : Input) (extra slope : Nat → Rat) (h : Data) (adjusted : Bool) : Prop where
  volumes : ∀ c, c < I.G.nc → ∃ u, Holds I c u
  changes : ∀ c u x, c < I.G.nc → ∃ du, Changes I c u x du
  cell_res : ∀ c u, c < I.G.nc → Holds I c u → res h c = I.porevol.getD c 0 - ∑ i ∈ Finset.range I.cq.np, u i - I.dt * srcVol I c + extra c
  cell_jac : ∃ e, h.sys.sa.getD 0 0 = (if adjusted = true then 2 * e else e) ∧ ∀ c u x du, c < I.G.nc → Holds I c u → Changes I c u x du →
    jac h x c = -∑ i ∈ Finset.range I.cq.np, du i + slope c * x c + if adjusted = true ∧ c = 0 then e * x 0 else 0
  well_res : ∀ W D, I.F.wells = some (W, D) → ∀ w m, w < W.nw → HasMode I.cq.np W w m → res h (I.G.nc + w) = wellRes I W D w m
  well_jac : ∀ W D, I.F.wells = some (W, D) → ∀ w m, w < W.nw → HasMode I.cq.np W w m → ∀ x, jac h x (I.G.nc + w) = wellJac I W D w x m

/-- Sum over the half faces of face `f`. -/
def halfSum (G : GridTopo) (v : Nat → Nat → Rat) (f : Nat) : Rat :=
  ∑ c ∈ Finset.range G.nc, ∑ i ∈ Finset.Ico (G.cellFacepos.getD c 0) (G.cellFacepos.getD (c + 1) 0), if G.cellFaces.getD i 0 = f then v c i else 0

end Opm.CfsTpfa
