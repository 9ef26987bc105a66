import Verif.Spec.Flux
import Verif.Spec.Graph
import Verif.Model.IfsTpfa
/-!
# Pressure systems: specification
-/

namespace Opm.IfsTpfa
open Opm Opm.SparseSys

/-- Row `i` of the matrix with structure `A` and values `sa`, times the vector `x`. -/
def rowDot (A : Csr) (sa : List Rat) (x : Nat → Rat) (i : Nat) : Rat :=
  ∑ p ∈ Finset.Ico (A.ia.getD i 0) (A.ia.getD (i + 1) 0), sa.getD p 0 * x (A.ja.getD p 0)

/-- `x` solves the linear system held by `h`. -/
def Solves (h : Data) (x : Nat → Rat) : Prop := ∀ i, i < h.A.m → rowDot h.A h.sa x i = h.b.getD i 0

/-- How a well is operated. -/
inductive WellMode where
  | shut
  | bhp (p : Rat)
  | rate (q : Rat)
  deriving DecidableEq

/-- Well `w` is operated in the given mode by its current control: no current control means shut; a reservoir rate control counts all phases. -/
def HasMode (W : Wells.W) (w : Nat) (m : WellMode) : Prop :=
  ∃ c, W.ctrls[w]? = some c ∧ match m with
    | .shut => c.current < 0
    | .bhp p => ∃ k : Nat, c.current = k ∧ k < c.num ∧ c.type[k]? = some .bhp ∧ c.target[k]? = some p
    | .rate q => ∃ k : Nat, c.current = k ∧ k < c.num ∧ c.type[k]? = some .reservoirRate ∧ c.target[k]? = some q ∧
        ∀ j, j < W.np → c.distr[W.np * k + j]? = some 1

/-- Perforation `i` belongs to well `w` and is in cell `c`. -/
def IsPerf (W : Wells.W) (w i c : Nat) : Prop :=
  ∃ a b, W.connpos[w]? = some a ∧ W.connpos[w + 1]? = some b ∧ a ≤ i ∧ i < b ∧ W.cells[i]? = some (c : Int)

/-- Number of perforations. -/
def numPerf (W : Wells.W) : Nat := W.connpos.getD W.nw 0

/-- What flows into cell `c` from perforations with fluxes `q`. -/
def wellInflow (W : Wells.W) (q : Nat → Rat) (c : Nat) : Rat :=
  ∑ i ∈ Finset.range (numPerf W), if W.cells[i]? = some (c : Int) then q i else 0

/-- What flows out of well `w`. -/
def wellOutflow (W : Wells.W) (q : Nat → Rat) (w : Nat) : Rat :=
  ∑ i ∈ Finset.Ico (W.connpos.getD w 0) (W.connpos.getD (w + 1) 0), q i

/-- A condition of type `ty` with value `v` is set on face `f`. -/
def HasCond (bc : FlowBc.Bcs) (ty : FlowBc.BcType) (v : Rat) (f : Nat) : Prop :=
  ∃ i j a b, i < bc.nbc ∧ bc.type[i]? = some ty ∧ bc.value[i]? = some v ∧ bc.condPos[i]? = some a ∧ bc.condPos[i + 1]? = some b ∧ a ≤ j ∧ j < b ∧
    bc.face[j]? = some (f : Int)

/-- Wells the solver can handle on mesh `G`: the perforations of the wells follow each other, are in cells of the mesh, and all wells have a mode. -/
structure WellsOk (G : GridTopo) (W : Wells.W) : Prop where
  pos : RowPos W.nw W.connpos
  cell : ∀ i, i < numPerf W → ∃ c : Nat, W.cells[i]? = some (c : Int) ∧ c < G.nc
  wi : numPerf W ≤ W.wi.length
  mode : ∀ w, w < W.nw → ∃ m, HasMode W w m

/-- Boundary conditions the solver can handle: on faces with exactly one side outside, at most one per face, flux conditions on single faces. -/
structure BcOk (G : GridTopo) (bc : FlowBc.Bcs) : Prop where
  pos : RowPos bc.nbc bc.condPos
  type : bc.nbc ≤ bc.type.length
  value : bc.nbc ≤ bc.value.length
  face : ∀ j, j < bc.condPos.getD bc.nbc 0 → ∃ f c : Nat, bc.face[j]? = some (f : Int) ∧ (G.Sides f c (-1) ∨ G.Sides f (-1) c)
  once : ∀ j j' : Nat, j < bc.condPos.getD bc.nbc 0 → j' < bc.condPos.getD bc.nbc 0 → bc.face[j]? = bc.face[j']? → j = j'
  single : ∀ i a b, i < bc.nbc → bc.type[i]? = some .fluxTotvol → bc.condPos[i]? = some a → bc.condPos[i + 1]? = some b → b = a + 1

/-- Driving forces the solver can handle. -/
structure ForcesOk (G : GridTopo) (F : Forces) : Prop where
  src : ∀ s, F.src = some s → G.nc ≤ s.length
  bc : ∀ bc, F.bc = some bc → BcOk G bc
  wells : ∀ W, F.wells = some W → WellsOk G W ∧ ∃ mt wdp, F.totmob = some mt ∧ F.wdp = some wdp ∧ G.nc ≤ mt.length ∧ numPerf W ≤ wdp.length

/-- Connection transmissibility of perforation `i`: total mobility of its cell times well index. -/
def perfTrans (F : Forces) (W : Wells.W) (i : Nat) : Rat := (F.totmob.getD []).getD (W.cells.getD i 0).toNat 0 * W.wi.getD i 0

/-- The explicit source of cell `c`. -/
def srcOf (F : Forces) (c : Nat) : Rat := (F.src.getD []).getD c 0

/-- No driving forces: what a null pointer stands for. -/
def noForces : Forces := { src := none, bc := none, wells := none, totmob := none, wdp := none }

/-- Sizes of the numerical inputs: one transmissibility per face, one gravity pressure per half face. -/
structure InOk (G : GridTopo) (trans gpress : List Rat) : Prop where
  trans : G.nf ≤ trans.length
  gpress : G.cellFacepos.getD G.nc 0 ≤ gpress.length

/-- `h` is `h0` with other numbers: same matrix structure, arrays of the same sizes. -/
structure SameShape (h0 h : Data) : Prop where
  A : h.A = h0.A
  sa : h.sa.length = h0.sa.length
  b : h.b.length = h0.b.length
  x : h.x.length = h0.x.length
  fgrav : h.fgrav.length = h0.fgrav.length
  work : h.work.length = h0.work.length

/-- The wells of the driving forces, if any, have the perforations of the wells `Wc`; their controls may differ. -/
def SameWells (F : Forces) (Wc : Option Wells.W) : Prop :=
  ∀ W, F.wells = some W → ∃ W', Wc = some W' ∧ W.nw = W'.nw ∧ W.connpos = W'.connpos ∧ W.cells = W'.cells

/-- A pressure problem: a valid nonempty mesh, admissible driving forces, inputs of the right sizes, and solver data made by `ifs_tpfa_construct` for this mesh and
wells with the same perforations; the data may have been used any number of times since. -/
structure Problem (G : GridTopo) (F : Option Forces) (trans gpress : List Rat) (h : Data) : Prop where
  valid : G.Valid
  first : G.cellFacepos[0]? = some 0
  nonempty : 0 < G.nc
  forces : ForcesOk G (F.getD noForces)
  sizes : InOk G trans gpress
  data : ∃ junk jd Wc hd, (∀ W, Wc = some W → WellsOk G W) ∧ SameWells (F.getD noForces) Wc ∧ construct junk jd G Wc = .ok hd ∧ SameShape hd h

/-- The arrays of the solution are large enough; perforation fluxes are asked for if there are wells. -/
structure SolnOk (G : GridTopo) (F : Forces) (s : Soln) : Prop where
  cell : G.nc ≤ s.cellPress.length
  face : G.nf ≤ s.faceFlux.length
  wellPress : ∀ W p, F.wells = some W → s.wellPress = some p → W.nw ≤ p.length
  wellFlux : ∀ W, F.wells = some W → ∃ q, s.wellFlux = some q ∧ numPerf W ≤ q.length

/-- Perforation fluxes of a solution. -/
def Soln.perfFlux (s : Soln) (i : Nat) : Rat := (s.wellFlux.getD []).getD i 0

/-- What the wells put into cell `c`. -/
def wellSource (F : Forces) (s : Soln) (c : Nat) : Rat :=
  match F.wells with
  | none => 0
  | some W => wellInflow W s.perfFlux c

/-- Connection transmissibilities are not negative. -/
def PerfsNonneg (F : Forces) : Prop := ∀ W, F.wells = some W → ∀ i, i < numPerf W → 0 ≤ perfTrans F W i

/-- Some well is operated at a given bottom-hole pressure. -/
def SomeBhpWell (F : Forces) : Prop := ∃ W w p, F.wells = some W ∧ w < W.nw ∧ HasMode W w (.bhp p)

/-- There is a pressure condition. -/
def SomePressureCond (F : Forces) : Prop := ∃ bc i, F.bc = some bc ∧ i < bc.nbc ∧ bc.type[i]? = some .pressure

/-- The target of well `w` if it is operated at a reservoir rate, otherwise zero. -/
def rateOf (W : Wells.W) (w : Nat) : Rat :=
  match W.ctrls[w]? with
  | none => 0
  | some c => if 0 ≤ c.current ∧ c.type[c.current.toNat]? = some .reservoirRate then c.target.getD c.current.toNat 0 else 0

/-- Everything injected by flux conditions. -/
def condInflow (F : Forces) : Rat :=
  match F.bc with
  | none => 0
  | some bc => ∑ i ∈ Finset.range bc.nbc, if bc.type[i]? = some .fluxTotvol then bc.value.getD i 0 else 0

/-- Everything injected by rate wells. -/
def rateInflow (F : Forces) : Rat :=
  match F.wells with
  | none => 0
  | some W => ∑ w ∈ Finset.range W.nw, rateOf W w

/-- Everything that is injected: sources, flux conditions, rate wells. -/
def totalInflow (G : GridTopo) (F : Forces) : Rat := ∑ c ∈ Finset.range G.nc, srcOf F c + condInflow F + rateInflow F

/-- Cell `c` is linked to something that fixes its pressure: a cell in `K`, a pressure condition or a well at given bottom-hole pressure, over faces and connections of rate wells
with positive transmissibilities. -/
inductive Anchored (G : GridTopo) (F : Forces) (trans : List Rat) (K : Nat → Prop) : Nat → Prop where
  | given {c : Nat} (hK : K c) : Anchored G F trans K c
  | cond {bc : FlowBc.Bcs} {v : Rat} {f c : Nat} (hB : F.bc = some bc) (hc : HasCond bc .pressure v f) (hs : G.Sides f c (-1) ∨ G.Sides f (-1) c)
      (ht : 0 < trans.getD f 0) : Anchored G F trans K c
  | bhp {W : Wells.W} {w i c : Nat} {p : Rat} (hW : F.wells = some W) (hw : w < W.nw) (hm : HasMode W w (.bhp p)) (hi : IsPerf W w i c) (ht : 0 < perfTrans F W i) :
      Anchored G F trans K c
  | face {f a b : Nat} (hs : G.Sides f a b ∨ G.Sides f b a) (ht : 0 < trans.getD f 0) (ha : Anchored G F trans K a) : Anchored G F trans K b
  | well {W : Wells.W} {w i j a b : Nat} {q : Rat} (hW : F.wells = some W) (hw : w < W.nw) (hm : HasMode W w (.rate q)) (hi : IsPerf W w i a) (hj : IsPerf W w j b)
      (hti : 0 < perfTrans F W i) (htj : 0 < perfTrans F W j) (ha : Anchored G F trans K a) : Anchored G F trans K b

/-- Every well has a connection of positive transmissibility. -/
def WellsConnected (F : Forces) : Prop := ∀ W w, F.wells = some W → w < W.nw → ∃ i c, IsPerf W w i c ∧ 0 < perfTrans F W i

end Opm.IfsTpfa
