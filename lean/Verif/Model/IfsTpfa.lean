import Verif.Core.RowLoop
import Verif.Model.Grid
import Verif.Model.SparseSys
import Verif.Model.Wells
import Verif.Model.FlowBc
/-!
# Two-point pressure solver for incompressible flow

Models `opm/core/pressure/tpfa/ifs_tpfa.c`.  Allocation succeeds, numbers are exact rationals, `assert` is active.  The linear solver is external to
this file: `x` is whatever it returned.  A null pointer is `none`.
-/

namespace Opm.IfsTpfa
open Opm Opm.SparseSys

/-- Using the signed number `i` as an index of an array: negative indices are out of bounds. -/
def index (i : Int) : M Nat := if i < 0 then .error .ub else .ok i.toNat

/-- `struct ifs_tpfa_forces`.  Models: `ifs_tpfa.h:70-77`. -/
structure Forces where
  src : Option (List Rat)
  bc : Option FlowBc.Bcs
  wells : Option Wells.W
  totmob : Option (List Rat)
  wdp : Option (List Rat)

/-- `struct ifs_tpfa_data` with its implementation part.  Models: `ifs_tpfa.h:48-54`, `ifs_tpfa.c:35-41`. -/
structure Data where
  A : Csr
  sa : List Rat
  b : List Rat
  x : List Rat
  fgrav : List Rat
  work : List Rat
  deriving DecidableEq

/-- `struct ifs_tpfa_solution`.  Models: `ifs_tpfa.h:59-65`. -/
structure Soln where
  cellPress : List Rat
  faceFlux : List Rat
  wellPress : Option (List Rat)
  wellFlux : Option (List Rat)
  deriving DecidableEq

/-- The numbers the assembly changes: matrix values and right-hand side. -/
structure Sys where
  sa : List Rat
  b : List Rat
  deriving DecidableEq

/-- `h->A->sa[k] += v`. -/
def addSa (k : Nat) (v : Rat) (s : Sys) : M Sys := do
  let sa ← addAt s.sa k v
  .ok { s with sa := sa }

/-- `h->b[k] += v`. -/
def addB (k : Nat) (v : Rat) (s : Sys) : M Sys := do
  let b ← addAt s.b k v
  .ok { s with b := b }

/-- `mult_csr_matrix(A, u, v)`.  Models: `ifs_tpfa.c:16-32`. -/
def multCsr (A : Csr) (sa u v : List Rat) : M (List Rat) := do
  let r ← loop A.m (fun i (r : Nat × List Rat) => do
    let v ← wr r.2 i 0
    let e ← rd A.ia (i + 1)
    let v ← forRange r.1 e (fun j v => do
      let a ← rd sa j
      let c ← rd A.ja j
      let x ← rd u c
      addAt v i (a * x)) v
    .ok (max r.1 e, v)) (0, v)
  .ok r.2

/-- The two connections of an interior face, given to `f` as (row, column).  Models: `ifs_tpfa.c:117-125`, `:153-161`. -/
def faceConn (G : GridTopo) (op : Nat → Nat → Csr → M Csr) (f : Nat) (A : Csr) : M Csr := do
  let c1 ← rd G.faceCells (2 * f)
  let c2 ← rd G.faceCells (2 * f + 1)
  if 0 ≤ c1 ∧ 0 ≤ c2 then do
    let A ← op c1.toNat c2.toNat A
    op c2.toNat c1.toNat A
  else .ok A

/-- The two connections of a perforation, given to `f` as (row, column).  Models: `ifs_tpfa.c:130-135`, `:166-171`. -/
def perfConn (nc : Nat) (W : Wells.W) (op : Nat → Nat → Csr → M Csr) (w i : Nat) (A : Csr) : M Csr := do
  let c ← rd W.cells i
  let c1 ← index c
  let A ← op c1 (nc + w) A
  op (nc + w) c1 A

/-- Connections of faces and wells.  Models: `ifs_tpfa.c:116-137`, `:152-173`. -/
def otherConns (G : GridTopo) (W : Option Wells.W) (op : Nat → Nat → Csr → M Csr) (A : Csr) : M Csr := do
  let A ← loop G.nf (faceConn G op) A
  match W with
  | none => .ok A
  | some W => rowLoop W.nw W.connpos (perfConn G.nc W op) A

/-- Number of wells, zero for a null pointer. -/
def numWells (W : Option Wells.W) : Nat := match W with
  | none => 0
  | some W => W.nw

/-- `ifs_tpfa_construct_matrix(G, W)`.  Models: `ifs_tpfa.c:93-182`. -/
def constructMatrix (junk : Nat → Nat) (G : GridTopo) (W : Option Wells.W) : M Csr := do
  let nnu := G.nc + numWells W
  let A ← newCountNnz nnu
  let A ← loop nnu (fun c (A : Csr) => do
    let ia ← wr A.ia (c + 1) 1
    .ok { A with ia := ia }) A
  let A ← otherConns G W (fun r _ A => countElm A r) A
  let A ← elmsPushback junk A
  let A ← loop nnu (fun i A => pushElm A i i) A
  let A ← otherConns G W (fun r c A => pushElm A r c) A
  let e ← rd A.ia nnu
  check (e == A.nnz)
  let ja ← sortrows A.m A.ia A.ja
  .ok { A with ja := ja }

/-- `ifs_tpfa_construct(G, W)` with `impl_allocate(G, W)`.  The new arrays have arbitrary contents.
Models: `ifs_tpfa.c:58-89`, `:658-686` and the allocation of `sa` in `sparse_sys.c:111`. -/
def construct (junk : Nat → Nat) (jd : Nat → Rat) (G : GridTopo) (W : Option Wells.W) : M Data := do
  let A ← constructMatrix junk G W
  .ok { A := A, sa := (List.range A.nnz).map jd, b := (List.range A.m).map jd, x := (List.range A.m).map jd,
        fgrav := (List.range G.nf).map jd, work := (List.range A.m).map jd }

/-- `compute_grav_term(G, gpress, fgrav)`.  Models: `ifs_tpfa.c:188-212`. -/
def gravTerm (G : GridTopo) (gpress fgrav : List Rat) : M (List Rat) := do
  let fg ← vectorZero G.nf fgrav
  rowLoop G.nc G.cellFacepos (fun c i fg => do
    let f ← rd G.cellFaces i
    let c1 ← rd G.faceCells (2 * f)
    let c2 ← rd G.faceCells (2 * f + 1)
    let s : Rat := if c1 = (c : Int) then 1 else -1
    if 0 ≤ c1 ∧ 0 ≤ c2 then do
      let g ← rd gpress i
      addAt fg f (s * g)
    else .ok fg) fg

/-- The cell of perforation `i` and its connection transmissibility `mt[c] * WI[i]`.  Models: `ifs_tpfa.c:238-239`, `:277,284`, `:333-334`, `:562-564`. -/
def perf (W : Wells.W) (mt : List Rat) (i : Nat) : M (Nat × Rat) := do
  let c ← rd W.cells i
  let c ← index c
  let m ← rd mt c
  let wi ← rd W.wi i
  .ok (c, m * wi)

/-- `assemble_bhp_well(nc, w, W, mt, wdp, h)` with the target `bhp`.  Models: `ifs_tpfa.c:216-251`. -/
def bhpWell (A : Csr) (nc w : Nat) (W : Wells.W) (mt wdp : List Rat) (bhp : Rat) (s : Sys) : M Sys := do
  let jw ← elmIndex (nc + w) (nc + w) A.ia A.ja
  let a ← rd W.connpos w
  let e ← rd W.connpos (w + 1)
  forRange a e (fun i s => do
    let p ← perf W mt i
    let d ← rd wdp i
    let jc ← elmIndex p.1 p.1 A.ia A.ja
    let s ← addSa jc p.2 s
    let s ← addB p.1 (p.2 * (bhp + d)) s
    let s ← addSa jw p.2 s
    addB (nc + w) (p.2 * bhp) s) s

/-- `assemble_rate_well(nc, w, W, mt, wdp, h)` with the target `resv`.  Models: `ifs_tpfa.c:255-298`. -/
def rateWell (A : Csr) (nc w : Nat) (W : Wells.W) (mt wdp : List Rat) (resv : Rat) (s : Sys) : M Sys := do
  let jww ← elmIndex (nc + w) (nc + w) A.ia A.ja
  let a ← rd W.connpos w
  let e ← rd W.connpos (w + 1)
  let s ← forRange a e (fun i s => do
    let p ← perf W mt i
    let d ← rd wdp i
    let jcc ← elmIndex p.1 p.1 A.ia A.ja
    let jcw ← elmIndex p.1 (nc + w) A.ia A.ja
    let jwc ← elmIndex (nc + w) p.1 A.ia A.ja
    let s ← addSa jcc p.2 s
    let s ← addSa jcw (-p.2) s
    let s ← addB p.1 (p.2 * d) s
    let s ← addSa jwc (-p.2) s
    let s ← addSa jww p.2 s
    addB (nc + w) (-(p.2 * d)) s) s
  addB (nc + w) resv s

/-- `assemble_shut_well(nc, w, W, mt, h)`.  Models: `ifs_tpfa.c:302-339`. -/
def shutWell (A : Csr) (nc w : Nat) (W : Wells.W) (mt : List Rat) (s : Sys) : M Sys := do
  let jw ← elmIndex (nc + w) (nc + w) A.ia A.ja
  let a ← rd W.connpos w
  let e ← rd W.connpos (w + 1)
  let s ← forRange a e (fun i s => do
    let p ← perf W mt i
    addSa jw p.2 s) s
  let b ← wr s.b (nc + w) 0
  .ok { s with b := b }

/-- Whether `distr[base], …, distr[base + n - 1]` are all one; stops at the first that is not.  Models: `ifs_tpfa.c:381-386`. -/
def allOnes (distr : List Rat) (base : Nat) : Nat → M Bool
  | 0 => .ok true
  | n + 1 => do
    let d ← rd distr base
    if d ≠ 1 then .ok false else allOnes distr (base + 1) n

/-- State of the well loop: the system and the flags `all_rate`, `ok`. -/
structure WState where
  sys : Sys
  allRate : Bool
  ok : Bool
  deriving DecidableEq

/-- A well with a current control.  Models: `ifs_tpfa.c:372-402`. -/
def openWell (A : Csr) (nc w : Nat) (W : Wells.W) (mt wdp : List Rat) (c : Wells.Controls) (s : WState) : M WState := do
  check (decide (c.current < c.num))
  let k ← index c.current
  let ty ← rd c.type k
  match ty with
  | .bhp => do
    let p ← rd c.target k
    let sys ← bhpWell A nc w W mt wdp p s.sys
    .ok { s with sys := sys, allRate := false }
  | .reservoirRate => do
    let one ← allOnes c.distr (W.np * k) W.np
    if one && s.ok then do
      let q ← rd c.target k
      let sys ← rateWell A nc w W mt wdp q s.sys
      .ok { s with sys := sys }
    else .ok { s with ok := false }
  | .surfaceRate => .ok { s with ok := false }

/-- `assemble_well_contrib(nc, W, mt, wdp, h, all_rate, ok)`.  Models: `ifs_tpfa.c:343-405`. -/
def wellContrib (A : Csr) (nc : Nat) (W : Wells.W) (mt wdp : List Rat) (s : Sys) : M WState :=
  loop W.nw (fun w (s : WState) => do
    let c ← rd W.ctrls w
    if c.current < 0 then do
      let sys ← shutWell A nc w W mt s.sys
      .ok { s with sys := sys }
    else openWell A nc w W mt wdp c s) { sys := s, allRate := true, ok := true }

/-- The sides of boundary face number `face[j]`: the face, its sides, exactly one of which is outside.  Models: `ifs_tpfa.c:431-435`, `:450-454`, `:492-496`, `:511-515`. -/
def bcFace (G : GridTopo) (bc : FlowBc.Bcs) (j : Nat) : M (Nat × Int × Int) := do
  let f ← rd bc.face j
  let f ← index f
  let c1 ← rd G.faceCells (2 * f)
  let c2 ← rd G.faceCells (2 * f + 1)
  check (decide (c1 < 0) != decide (c2 < 0))
  .ok (f, c1, c2)

/-- State of the boundary condition loop: the system and `is_neumann`. -/
structure BState where
  sys : Sys
  neumann : Bool
  deriving DecidableEq

/-- One condition.  Models: `ifs_tpfa.c:425-466`. -/
def bcCond (G : GridTopo) (A : Csr) (bc : FlowBc.Bcs) (trans fgrav : List Rat) (i : Nat) (s : BState) : M BState := do
  let ty ← rd bc.type i
  match ty with
  | .pressure => do
    let a ← rd bc.condPos i
    let e ← rd bc.condPos (i + 1)
    let sys ← forRange a e (fun j s => do
      let q ← bcFace G bc j
      let t ← rd trans q.1
      let g ← rd fgrav q.1
      let v ← rd bc.value i
      let sg : Rat := if 0 ≤ q.2.1 then 1 else -1
      let c ← index (if 0 ≤ q.2.1 then q.2.1 else q.2.2)
      let ix ← elmIndex c c A.ia A.ja
      let s ← addSa ix t s
      let s ← addB c (t * v) s
      addB c (-(sg * t * g)) s) s.sys
    .ok { sys := sys, neumann := false }
  | .fluxTotvol => do
    let a ← rd bc.condPos i
    let e ← rd bc.condPos (i + 1)
    check (decide (e = a + 1))
    let sys ← forRange a e (fun j s => do
      let q ← bcFace G bc j
      let c ← index (if 0 ≤ q.2.1 then q.2.1 else q.2.2)
      let v ← rd bc.value i
      addB c v s) s.sys
    .ok { s with sys := sys }
  | .noflow => .ok s

/-- `assemble_bc_contrib(G, bc, trans, h)`.  Models: `ifs_tpfa.c:409-470`. -/
def bcContrib (G : GridTopo) (A : Csr) (bc : FlowBc.Bcs) (trans fgrav : List Rat) (s : Sys) : M BState :=
  loop bc.nbc (bcCond G A bc trans fgrav) { sys := s, neumann := true }

/-- The loop over cells and faces.  Models: `ifs_tpfa.c:597-618`. -/
def faceContrib (G : GridTopo) (A : Csr) (trans fgrav : List Rat) (s : Sys) : M Sys :=
  rowLoopPre G.nc G.cellFacepos (fun c => elmIndex c c A.ia A.ja) (fun c j1 i s => do
    let f ← rd G.cellFaces i
    let c1 ← rd G.faceCells (2 * f)
    let c2 ← rd G.faceCells (2 * f + 1)
    let sg : Rat := if c1 = (c : Int) then 1 else -1
    let c2 := if c1 = (c : Int) then c2 else c1
    let t ← rd trans f
    let g ← rd fgrav f
    let s ← addB c (-(t * (sg * g))) s
    if 0 ≤ c2 then do
      let j2 ← elmIndex c c2.toNat A.ia A.ja
      let s ← addSa j1 t s
      addSa j2 (-t) s
    else .ok s) s

/-- The wells, if there are any and their data are given.  Models: `ifs_tpfa.c:625-637`. -/
def wellPart (G : GridTopo) (A : Csr) (F : Forces) (s : Sys) : M WState :=
  match F.wells, F.totmob, F.wdp with
  | some W, some mt, some wdp => do
    check (decide (A.m = G.nc + W.nw))
    wellContrib A G.nc W mt wdp s
  | _, _, _ => .ok { sys := s, allRate := true, ok := true }

/-- The boundary conditions, if there are any.  Models: `ifs_tpfa.c:639-642`. -/
def bcPart (G : GridTopo) (A : Csr) (F : Forces) (trans fgrav : List Rat) (s : Sys) : M BState :=
  match F.bc with
  | some bc => bcContrib G A bc trans fgrav s
  | none => .ok { sys := s, neumann := true }

/-- The explicit sources, if there are any.  Models: `ifs_tpfa.c:644-649`. -/
def srcPart (G : GridTopo) (F : Forces) (s : Sys) : M Sys :=
  match F.src with
  | some src => loop G.nc (fun c s => do
      let q ← rd src c
      addB c q s) s
  | none => .ok s

/-- The driving forces: new system, `wells_are_rate`, `res_is_neumann`, `ok`.  Models: `ifs_tpfa.c:621-650`. -/
def forcePart (G : GridTopo) (A : Csr) (F : Option Forces) (trans fgrav : List Rat) (s : Sys) : M (Sys × Bool × Bool × Bool) :=
  match F with
  | none => .ok (s, true, true, true)
  | some F => do
    let w ← wellPart G A F s
    let b ← bcPart G A F trans fgrav w.sys
    let s ← srcPart G F b.sys
    .ok (s, w.allRate, b.neumann, w.ok)

/-- `assemble_incompressible(G, F, trans, gpress, h, singular, ok)`; returns the new data, `singular` and `ok`.  Models: `ifs_tpfa.c:574-651`. -/
def assembleIncompressible (G : GridTopo) (F : Option Forces) (trans gpress : List Rat) (h : Data) : M (Data × Bool × Bool) := do
  let sa ← vectorZero h.A.nnz h.sa
  let b ← vectorZero h.A.m h.b
  let fg ← gravTerm G gpress h.fgrav
  let s ← faceContrib G h.A trans fg { sa := sa, b := b }
  let r ← forcePart G h.A F trans fg s
  .ok ({ h with sa := r.1.sa, b := r.1.b, fgrav := fg }, r.2.2.1 && r.2.1, r.2.2.2)

/-- `ifs_tpfa_assemble(G, F, trans, gpress, h)`; the second component is the returned value.  Models: `ifs_tpfa.c:690-707`. -/
def assemble (G : GridTopo) (F : Option Forces) (trans gpress : List Rat) (h : Data) : M (Data × Bool) := do
  let r ← assembleIncompressible G F trans gpress h
  if r.2.2 && r.2.1 then do
    let v ← rd r.1.sa 0
    let sa ← wr r.1.sa 0 (v * 2)
    .ok ({ r.1 with sa := sa }, r.2.2)
  else .ok (r.1, r.2.2)

/-- `ifs_tpfa_assemble_comprock(G, F, trans, gpress, porevol, rock_comp, dt, pressure, h)`.  Models: `ifs_tpfa.c:711-750`. -/
def assembleComprock (G : GridTopo) (F : Option Forces) (trans gpress porevol rockComp : List Rat) (dt : Rat) (pressure : List Rat) (h : Data) :
    M (Data × Bool) := do
  let r ← assembleIncompressible G F trans gpress h
  if r.2.2 then do
    let s ← loop G.nc (fun c s => do
      let j ← elmIndex c c h.A.ia h.A.ja
      let pv ← rd porevol c
      let rc ← rd rockComp c
      let d ← fdiv (pv * rc) dt
      let p ← rd pressure c
      let s ← addSa j d s
      addB c (d * p) s) { sa := r.1.sa, b := r.1.b }
    .ok ({ r.1 with sa := s.sa, b := s.b }, r.2.2)
  else .ok (r.1, r.2.2)

/-- The right-hand side of the wells.  A null `F` is dereferenced.  Models: `ifs_tpfa.c:792-798`. -/
def incrementWells (G : GridTopo) (F : Option Forces) (v : List Rat) (s : Sys) : M Sys :=
  match F with
  | none => .error .ub
  | some F => match F.wells with
    | none => .ok s
    | some W => loop W.nw (fun w s => do
        let x ← rd v (G.nc + w)
        addB (G.nc + w) (-x) s) s

/-- `ifs_tpfa_assemble_comprock_increment(G, F, trans, gpress, porevol, rock_comp, dt, prev_pressure, initial_porevolume, h)`.
Models: `ifs_tpfa.c:754-802`. -/
def assembleComprockIncrement (G : GridTopo) (F : Option Forces) (trans gpress porevol rockComp : List Rat) (dt : Rat)
    (prevPressure initialPorevol : List Rat) (h : Data) : M (Data × Bool) := do
  let r ← assembleIncompressible G F trans gpress h
  if r.2.2 then do
    let v ← multCsr h.A r.1.sa prevPressure r.1.work
    let s ← loop G.nc (fun c s => do
      let j ← elmIndex c c h.A.ia h.A.ja
      let pv ← rd porevol c
      let pv0 ← rd initialPorevol c
      let dpvdt ← fdiv (pv - pv0) dt
      let rc ← rd rockComp c
      let d ← fdiv (pv * rc) dt
      let x ← rd v c
      let s ← addSa j d s
      addB c (-(dpvdt + x)) s) { sa := r.1.sa, b := r.1.b }
    let s ← incrementWells G F v s
    .ok ({ r.1 with sa := s.sa, b := s.b, work := v }, r.2.2)
  else .ok (r.1, r.2.2)

/-- One condition of `boundary_fluxes`.  Models: `ifs_tpfa.c:489-524`. -/
def bcFlux (G : GridTopo) (bc : FlowBc.Bcs) (trans cpress fgrav : List Rat) (i : Nat) (q : List Rat) : M (List Rat) := do
  let ty ← rd bc.type i
  match ty with
  | .pressure => do
    let a ← rd bc.condPos i
    let e ← rd bc.condPos (i + 1)
    forRange a e (fun j q => do
      let r ← bcFace G bc j
      let v ← rd bc.value i
      let p ← rdI cpress (if r.2.1 < 0 then r.2.2 else r.2.1)
      let dh := if r.2.1 < 0 then v - p else p - v
      let t ← rd trans r.1
      let g ← rd fgrav r.1
      wr q r.1 (t * (dh + g))) q
  | .fluxTotvol => do
    let a ← rd bc.condPos i
    let e ← rd bc.condPos (i + 1)
    check (decide (e = a + 1))
    forRange a e (fun j q => do
      let r ← bcFace G bc j
      let v ← rd bc.value i
      let s : Rat := if r.2.1 < 0 then 1 else -1
      wr q r.1 (s * v)) q
  | .noflow => .ok q

/-- `boundary_fluxes(G, bc, trans, cpress, h, fflux)`.  Models: `ifs_tpfa.c:474-526`. -/
def boundaryFluxes (G : GridTopo) (bc : FlowBc.Bcs) (trans cpress fgrav q : List Rat) : M (List Rat) :=
  loop bc.nbc (bcFlux G bc trans cpress fgrav) q

/-- The bottom-hole pressures.  Models: `ifs_tpfa.c:541-548`. -/
def wellPressures (nc : Nat) (W : Wells.W) (x : List Rat) (wp : Option (List Rat)) : M (Option (List Rat)) :=
  match wp with
  | none => .ok none
  | some p => do
    let p ← loop W.nw (fun w p => do
      let c ← rd W.ctrls w
      if 0 ≤ c.current then do
        let v ← rd x (nc + w)
        wr p w v
      else .ok p) p
    .ok (some p)

/-- The perforation fluxes.  `mt` and `wdp` are read without a test for null.  Models: `ifs_tpfa.c:550-569`. -/
def wellFluxes (nc : Nat) (F : Forces) (W : Wells.W) (x cpress : List Rat) (wf : Option (List Rat)) : M (Option (List Rat)) :=
  match wf with
  | none => .ok none
  | some q => do
    let q ← rowLoopPre W.nw W.connpos
      (fun w => do
        let bhp ← rd x (nc + w)
        let c ← rd W.ctrls w
        .ok (bhp, decide (c.current < 0)))
      (fun _ t i q => do
        let p ← perf W (F.totmob.getD []) i
        let d ← rd (F.wdp.getD []) i
        let pc ← rd cpress p.1
        wr q i (if t.2 then 0 else p.2 * (t.1 + d - pc))) q
    .ok (some q)

/-- The flux of a face from pressures.  Models: `ifs_tpfa.c:828-838`. -/
def interiorFlux (G : GridTopo) (trans fgrav cpress : List Rat) (f : Nat) (q : List Rat) : M (List Rat) := do
  let c1 ← rd G.faceCells (2 * f)
  let c2 ← rd G.faceCells (2 * f + 1)
  if 0 ≤ c1 ∧ 0 ≤ c2 then do
    let p1 ← rdI cpress c1
    let p2 ← rdI cpress c2
    let g ← rd fgrav f
    let t ← rd trans f
    wr q f (t * (p1 - p2 + g))
  else wr q f 0

/-- Boundary fluxes, if there are boundary conditions.  Models: `ifs_tpfa.c:841-843`. -/
def bcFluxPart (G : GridTopo) (F : Forces) (trans cpress fgrav q : List Rat) : M (List Rat) :=
  match F.bc with
  | some bc => boundaryFluxes G bc trans cpress fgrav q
  | none => .ok q

/-- Boundary fluxes and well solution.  Models: `ifs_tpfa.c:840-849`. -/
def forceFluxes (G : GridTopo) (F : Option Forces) (trans : List Rat) (h : Data) (s : Soln) : M Soln :=
  match F with
  | none => .ok s
  | some F => do
    let q ← bcFluxPart G F trans s.cellPress h.fgrav s.faceFlux
    match F.wells with
    | some W => do
      let wp ← wellPressures G.nc W h.x s.wellPress
      let wf ← wellFluxes G.nc F W h.x s.cellPress s.wellFlux
      .ok { s with faceFlux := q, wellPress := wp, wellFlux := wf }
    | none => .ok { s with faceFlux := q }

/-- `ifs_tpfa_press_flux(G, F, trans, h, soln)`.  Models: `ifs_tpfa.c:806-850`. -/
def pressFlux (G : GridTopo) (F : Option Forces) (trans : List Rat) (h : Data) (s : Soln) : M Soln := do
  let cp ← loop G.nc (fun c p => do
    let v ← rd h.x c
    wr p c v) s.cellPress
  let q ← loop G.nf (interiorFlux G trans h.fgrav cp) s.faceFlux
  forceFluxes G F trans h { s with cellPress := cp, faceFlux := q }

end Opm.IfsTpfa
