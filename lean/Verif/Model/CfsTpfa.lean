import Verif.Model.IfsTpfa
import Verif.Model.Sources
/-!
# Residual and Jacobian of compressible flow

Models `opm/core/pressure/tpfa/cfs_tpfa_residual.c` (the part that is compiled).  Allocation succeeds, numbers are exact rationals, `assert` is active.  A block of consecutive
numbers in a larger array is a function of the position in the block, obtained after a bounds check.  The scratch arrays `flux_work`, `lu`, `t1`, `t2`, `linsolve_buffer`, `coeff` and `mat_row`
are local values here: each is written before it is read.  BLAS products are their definitions; LAPACK's factorisation and solution of small systems is a parameter.
-/

namespace Opm.CfsTpfa
open Opm.SparseSys
open _root_.Opm.IfsTpfa (Sys addSa addB index)

/-- A block of numbers. -/
abbrev Block := Nat → Rat

/-- The `n` numbers of `a` from position `off`. -/
def block (a : List Rat) (off n : Nat) : M Block := if off + n ≤ a.length then .ok (fun j => a.getD (off + j) 0) else .error .ub

/-- `s = 0; for (p = 0; p < n; p++) s += v[p];` -/
def sumN : Nat → Block → Rat
  | 0, _ => 0
  | n + 1, v => sumN n v + v n

/-- `struct compr_quantities_gen` without `voldiscr`, which is not used.  Models: `compr_quant_general.h:40-92`. -/
structure Quantities where
  np : Nat
  Ac : List Rat
  dAc : List Rat
  Af : List Rat
  phasemobf : List Rat

/-- `struct CompletionData`.  Models: `wells.h:190-207`. -/
structure Completions where
  wdp : List Rat
  A : List Rat
  phasemob : List Rat

/-- `struct cfs_tpfa_res_forces`.  Models: `cfs_tpfa_residual.h:71-91`. -/
structure Forces where
  wells : Option (Wells.W × Completions)
  src : Option Sources.CSrc

/-- `dgetrf` and `dgetrs`: for the size and the matrix, in columns, the map from right-hand sides to solutions; `none` if `info` is not zero. -/
abbrev Lapack := Nat → Block → Option (Block → Block)

/-- Fluxes with their derivatives by the pressures of the two sides. -/
structure Comp where
  flux : Block
  d0 : Block
  d1 : Block

/-- `struct cfs_tpfa_res_data` with its implementation part.  Models: `cfs_tpfa_residual.h:98-103`, `cfs_tpfa_residual.c:39-59`. -/
structure Data where
  J : Csr
  sys : Sys
  incomp : Bool
  face : List Comp
  perf : List Comp
  scratch : List Rat

/-- `cfs_tpfa_res_construct(G, wells, nphases)`.  `construct_matrix` is, statement by statement, `ifs_tpfa_construct_matrix`.  New arrays have arbitrary contents.
Models: `cfs_tpfa_residual.c:131-279`, `:1162-1212`. -/
def construct (junk : Nat → Nat) (jd : Nat → Rat) (jc : Nat → Comp) (G : GridTopo) (W : Option Wells.W) : M Data := do
  let J ← IfsTpfa.constructMatrix junk G W
  let np ← match W with
    | none => .ok 0
    | some W => rd W.connpos W.nw
  .ok { J := J, sys := { sa := (List.range J.nnz).map jd, b := (List.range J.m).map jd }, incomp := true, face := (List.range G.nf).map jc, perf := (List.range np).map jc,
        scratch := (List.range G.nf).map jd }

/-- `factorise_fluid_matrix(np, A, ratio)`.  Models: `cfs_tpfa_residual.c:282-295`; its result is used by `solve_linear_systems`, `:298-313`. -/
def factorise (lu : Lapack) (np : Nat) (A : Block) : M (Block → Block) :=
  match lu np A with
  | none => .error .assertFail
  | some s => .ok s

/-- `matvec(nrow, ncol, A, x, y)`, matrices in columns.  Models: `cfs_tpfa_residual.c:316-347`. -/
def matvec (nrow ncol : Nat) (A x : Block) : Block := fun i => sumN ncol (fun j => A (j * nrow + i) * x j)

/-- `compute_darcyflux_and_deriv(np, trans, dp, pmobf, gcapf, dflux, dflux_deriv)`.  Models: `cfs_tpfa_residual.c:350-369`. -/
def darcy (trans dp : Rat) (mob gcap : Block) : Comp :=
  { flux := fun p => trans * mob p * (dp + gcap p), d0 := fun p => trans * mob p, d1 := fun p => -(trans * mob p) }

/-- The products of `A` with fluxes and derivatives.  Models: `cfs_tpfa_residual.c:405-409`, `:463-467`. -/
def times (np : Nat) (A : Block) (v : Comp) : Comp := { flux := matvec np np A v.flux, d0 := matvec np np A v.d0, d1 := matvec np np A v.d1 }

/-- `compute_compflux_and_deriv(G, np, cpress, trans, pmobf, gcapf, Af, pimpl)`.  Models: `cfs_tpfa_residual.c:372-414`. -/
def compFlux (G : GridTopo) (np : Nat) (cpress trans pmobf gcapf Af : List Rat) (face : List Comp) : M (List Comp) :=
  loop G.nf (fun f face => do
    let c1 ← rd G.faceCells (2 * f)
    let c2 ← rd G.faceCells (2 * f + 1)
    if 0 ≤ c1 ∧ 0 ≤ c2 then do
      let p1 ← rd cpress c1.toNat
      let p2 ← rd cpress c2.toNat
      let t ← rd trans f
      let mob ← block pmobf (f * np) np
      let g ← block gcapf (f * np) np
      let A ← block Af (f * (np * np)) (np * np)
      wr face f (times np A (darcy t (p1 - p2) mob g))
    else .ok face) face

/-- The Darcy fluxes of perforation `i` of a well with pressure `pw`.  Models: `cfs_tpfa_residual.c:456-461`, `:938-953`. -/
def perfDarcy (W : Wells.W) (D : Completions) (np : Nat) (cpress : List Rat) (pw : Rat) (i : Nat) : M (Nat × Comp) := do
  let c ← rd W.cells i
  let c ← index c
  let d ← rd D.wdp i
  let p ← rd cpress c
  let wi ← rd W.wi i
  let mob ← block D.phasemob (i * np) np
  let g ← block [0, 0, 0] 0 np
  .ok (c, darcy wi (pw + d - p) mob g)

/-- `compute_well_compflux_and_deriv(wells, np, cpress, wpress, pimpl)`.  Models: `cfs_tpfa_residual.c:417-470`. -/
def wellCompFlux (W : Wells.W) (D : Completions) (np : Nat) (cpress wpress : List Rat) (perf : List Comp) : M (List Comp) := do
  check (decide (W.np ≤ 3))
  rowLoopPre W.nw W.connpos (fun w => rd wpress w) (fun _ pw i perf => do
    let q ← perfDarcy W D np cpress pw i
    let A ← block D.A (i * (np * np)) (np * np)
    wr perf i (times np A q.2)) perf

/-- An interior face of a cell: its coefficient `dt` or `-dt`, and what flows. -/
structure Conn where
  coeff : Rat
  comp : Comp

/-- `init_cell_contrib(G, c, np, pvol, dt, z, pimpl)`: the connections of cell `c`; the accumulation term is added by the caller here.  `count_internal_conn` counts what this loop
appends, so the assertions at lines 534-535 hold.  Models: `cfs_tpfa_residual.c:474-538`. -/
def initCell (G : GridTopo) (c : Nat) (dt : Rat) (face : List Comp) : M (List Conn) := do
  let a ← rd G.cellFacepos c
  let e ← rd G.cellFacepos (c + 1)
  forRange a e (fun i conns => do
    let f ← rd G.cellFaces i
    let c1 ← rd G.faceCells (2 * f)
    let c2 ← rd G.faceCells (2 * f + 1)
    if 0 ≤ c1 ∧ 0 ≤ c2 then do
      let x ← rd face f
      .ok (conns ++ [⟨dt * (2 * (if c1 = (c : Int) then 1 else 0) - 1), x⟩])
    else .ok conns) []

/-- What a cell contributes: its residual, the diagonal element, one element per face of the cell, and whether the derivative of its fluid matrix does not matter. -/
structure CellRow where
  res : Rat
  diag : Rat
  offs : List Rat
  incomp : Bool

/-- State of the loop over the faces of a cell: number of connections seen, diagonal element and elements of the row. -/
structure RowState where
  k : Nat
  diag : Rat
  offs : List Rat

/-- `compute_cell_contrib(G, c, np, pvol, dt, z, Ac, dAc, pimpl)`.  Models: `cfs_tpfa_residual.c:541-616`. -/
def cellContrib (lu : Lapack) (G : GridTopo) (c np : Nat) (pvol dt : Rat) (z Ac dAc : Block) (face : List Comp) : M CellRow := do
  let conns ← initCell G c dt face
  let s ← factorise lu np Ac
  let t1 : Block := fun i => s z i * -pvol + (conns.map (fun k => s k.comp.flux i * k.coeff)).sum
  let t2 := s (matvec np np dAc t1)
  let dF := sumN np t2
  let a ← rd G.cellFacepos c
  let e ← rd G.cellFacepos (c + 1)
  let r ← forRange a e (fun i (r : RowState) => do
    let f ← rd G.cellFaces i
    let c1 ← rd G.faceCells (2 * f)
    let c2 ← rd G.faceCells (2 * f + 1)
    if 0 ≤ c1 ∧ 0 ≤ c2 then do
      let k ← rd conns r.k
      let sg : Rat := if c1 = (c : Int) then 1 else -1
      let dF1 := sumN np (s (if c1 = (c : Int) then k.comp.d0 else k.comp.d1))
      let dF2 := sumN np (s (if c1 = (c : Int) then k.comp.d1 else k.comp.d0))
      .ok { k := r.k + 1, diag := r.diag + sg * dt * dF1, offs := r.offs ++ [sg * dt * dF2] }
    else .ok { r with offs := r.offs ++ [0] }) { k := 0, diag := -dF, offs := [] }
  .ok { res := pvol + sumN np t1, diag := r.diag, offs := r.offs, incomp := decide (dF = 0) }

/-- `assemble_cell_contrib(G, c, h)`.  Models: `cfs_tpfa_residual.c:636-667`. -/
def assembleCell (G : GridTopo) (J : Csr) (c : Nat) (row : CellRow) (s : Sys) : M Sys := do
  let j1 ← elmIndex c c J.ia J.ja
  let s ← addSa j1 row.diag s
  let a ← rd G.cellFacepos c
  let e ← rd G.cellFacepos (c + 1)
  let s ← forRange a e (fun i s => do
    let f ← rd G.cellFaces i
    let c1 ← rd G.faceCells (2 * f)
    let c2 ← rd G.faceCells (2 * f + 1)
    let o := if c1 = (c : Int) then c2 else c1
    if 0 ≤ o then do
      let j2 ← elmIndex c o.toNat J.ia J.ja
      let v ← rd row.offs (i - a)
      addSa j2 v s
    else .ok s) s
  let b ← wr s.b c row.res
  .ok { s with b := b }

/-- `assemble_sources(dt, src, h)`.  Models: `cfs_tpfa_residual.c:619-632`. -/
def sources (J : Csr) (dt : Rat) (src : Sources.CSrc) (s : Sys) : M Sys :=
  loop src.nsrc (fun i s => do
    let c ← rd src.cell i
    check (decide (0 ≤ c))
    check (decide (c.toNat < J.m))
    let q ← rd src.flux i
    addB c.toNat (-(dt * q)) s) s

/-- `init_completion_contrib(i, np, Ac, dAc, pimpl)`: the solutions for the fluxes and derivatives of perforation `i`, and `t2`.  Models: `cfs_tpfa_residual.c:670-698`. -/
def initCompletion (lu : Lapack) (i np : Nat) (Ac dAc : Block) (perf : List Comp) : M (Comp × Block) := do
  let x ← rd perf i
  let s ← factorise lu np Ac
  .ok ({ flux := s x.flux, d0 := s x.d0, d1 := s x.d1 }, s (matvec np np dAc (s x.flux)))

/-- `assemble_completion_to_cell(c, wdof, np, dt, h)`.  Models: `cfs_tpfa_residual.c:701-744`. -/
def completionToCell (J : Csr) (c wdof np : Nat) (dt : Rat) (x : Comp × Block) (s : Sys) : M Sys := do
  let s ← addB c (-(dt * sumN np x.1.flux)) s
  check (decide (c < wdof))
  let jc ← elmIndex c c J.ia J.ja
  let jw ← elmIndex c wdof J.ia J.ja
  let s ← addSa jc (dt * sumN np x.2) s
  let s ← addSa jc (dt * sumN np x.1.d0) s
  addSa jw (dt * sumN np x.1.d1) s

/-- Contributions to a well equation: residual, derivative by the cell's pressure, derivative by the well's pressure. -/
structure WellCoeff where
  res : Rat
  w2c : Rat
  w2w : Rat

/-- The sums of `welleq_coeff_resv` and `welleq_coeff_surfrate`.  Models: `cfs_tpfa_residual.c:811-818`, `:838-845`. -/
def weighted (np : Nat) (distr : Block) (q : Comp) : WellCoeff :=
  { res := sumN np (fun p => distr p * q.flux p), w2w := sumN np (fun p => distr p * q.d0 p), w2c := sumN np (fun p => distr p * q.d1 p) }

/-- The coefficients for the current control; `q` are the Darcy fluxes of perforation `i`, `x` the component fluxes.  Models: `cfs_tpfa_residual.c:748-846`, `:869-891`. -/
def wellCoeff (W : Wells.W) (ctrl : Wells.Controls) (np : Nat) (pw : Rat) (q x : Comp) : M WellCoeff :=
  if ctrl.current < 0 then .ok { res := 0, w2c := 0, w2w := sumN np q.d0 }
  else do
    let k := ctrl.current.toNat
    let ty ← rd ctrl.type k
    match ty with
    | .bhp => do
      let t ← rd ctrl.target k
      .ok { res := sumN np q.d0 * (pw - t), w2c := 0, w2w := sumN np q.d0 }
    | .reservoirRate => do
      check (decide (W.np = np))
      let d ← block ctrl.distr (k * np) np
      .ok (weighted np d q)
    | .surfaceRate => do
      let d ← block ctrl.distr (k * np) np
      .ok (weighted np d x)

/-- `assemble_completion_to_well(i, w, c, nc, np, pw, dt, wells, h)`.  Models: `cfs_tpfa_residual.c:850-900`. -/
def completionToWell (J : Csr) (W : Wells.W) (ctrl : Wells.Controls) (w c nc np : Nat) (pw dt : Rat) (q x : Comp) (s : Sys) : M Sys := do
  let k ← wellCoeff W ctrl np pw q x
  let jc ← elmIndex (nc + w) c J.ia J.ja
  let jw ← elmIndex (nc + w) (nc + w) J.ia J.ja
  let s ← addB (nc + w) (dt * k.res) s
  let s ← addSa jc (dt * k.w2c) s
  addSa jw (dt * k.w2w) s

/-- One perforation.  Models: `cfs_tpfa_residual.c:938-956`. -/
def perforation (lu : Lapack) (J : Csr) (W : Wells.W) (D : Completions) (cq : Quantities) (nc : Nat) (dt : Rat) (cpress : List Rat) (perf : List Comp) (w : Nat) (pw : Rat)
    (ctrl : Wells.Controls) (i : Nat) (s : Sys) : M Sys := do
  let q ← perfDarcy W D cq.np cpress pw i
  let Ac ← block cq.Ac (q.1 * (cq.np * cq.np)) (cq.np * cq.np)
  let dAc ← block cq.dAc (q.1 * (cq.np * cq.np)) (cq.np * cq.np)
  let x ← initCompletion lu i cq.np Ac dAc perf
  let s ← if 0 ≤ ctrl.current then completionToCell J q.1 (nc + w) cq.np dt x s else .ok s
  let y ← rd perf i
  completionToWell J W ctrl w q.1 nc cq.np pw dt q.2 y s

/-- State of the loop over wells: position among the perforations, the system, `is_neumann`. -/
structure WellState where
  i : Nat
  sys : Sys
  neumann : Bool

/-- `assemble_well_contrib(wells, cq, dt, cpress, wpress, h)`.  Models: `cfs_tpfa_residual.c:903-970`. -/
def wellContrib (lu : Lapack) (J : Csr) (W : Wells.W) (D : Completions) (cq : Quantities) (dt : Rat) (cpress wpress : List Rat) (perf : List Comp) (s : Sys) : M (Sys × Bool) := do
  let nc := J.m - W.nw
  let r ← loop W.nw (fun w (r : WellState) => do
    let pw ← rd wpress w
    let ctrl ← rd W.ctrls w
    let e ← rd W.connpos (w + 1)
    let s ← forRange r.i e (perforation lu J W D cq nc dt cpress perf w pw ctrl) r.sys
    let i := max r.i e
    if 0 ≤ ctrl.current then do
      let ty ← rd ctrl.type ctrl.current.toNat
      if ty ≠ .bhp then do
        let t ← rd ctrl.target ctrl.current.toNat
        let s ← addB (nc + w) (-(dt * t)) s
        .ok { i := i, sys := s, neumann := r.neumann }
      else .ok { i := i, sys := s, neumann := false }
    else .ok { i := i, sys := s, neumann := false }) { i := 0, sys := s, neumann := true }
  .ok (r.sys, r.neumann)

/-- The loop over cells.  Models: `cfs_tpfa_residual.c:1243-1252`. -/
def cells (lu : Lapack) (G : GridTopo) (J : Csr) (dt : Rat) (zc : List Rat) (cq : Quantities) (porevol : List Rat) (face : List Comp) (s : Sys × Bool) : M (Sys × Bool) :=
  loop G.nc (fun c (s : Sys × Bool) => do
    let pv ← rd porevol c
    let z ← block zc (c * cq.np) cq.np
    let Ac ← block cq.Ac (c * (cq.np * cq.np)) (cq.np * cq.np)
    let dAc ← block cq.dAc (c * (cq.np * cq.np)) (cq.np * cq.np)
    let row ← cellContrib lu G c cq.np pv dt z Ac dAc face
    let sys ← assembleCell G J c row s.1
    .ok (sys, s.2 && row.incomp)) s

/-- The wells, if there are any.  Models: `cfs_tpfa_residual.c:1254-1263`. -/
def wellsPart (lu : Lapack) (F : Forces) (dt : Rat) (cq : Quantities) (cpress wpress : List Rat) (h : Data) (s : Sys) : M (Sys × Bool × List Comp) :=
  match F.wells with
  | none => .ok (s, true, h.perf)
  | some (W, D) => do
    let perf ← wellCompFlux W D cq.np cpress wpress h.perf
    let q ← wellContrib lu h.J W D cq dt cpress wpress perf s
    .ok (q.1, q.2, perf)

/-- The sources, if there are any.  Models: `cfs_tpfa_residual.c:1265-1268`. -/
def srcPart (F : Forces) (dt : Rat) (np : Nat) (h : Data) (s : Sys) : M Sys :=
  match F.src with
  | none => .ok s
  | some src => do
    check (decide (src.nphases = np))
    sources h.J dt src s

/-- `if (singular) sa[0] *= k;`  Models: `cfs_tpfa_residual.c:1270-1273`, `:1314-1316`, `:1333-1335`. -/
def scaleFirst (sing : Bool) (k : Rat) (sa : List Rat) : M (List Rat) :=
  if sing then do
    let d ← rd sa 0
    wr sa 0 (d * k)
  else .ok sa

/-- `cfs_tpfa_res_assemble(G, dt, forces, zc, cq, trans, gravcap_f, cpress, wpress, porevol, h)`.  Models: `cfs_tpfa_residual.c:1215-1275`. -/
def assemble (lu : Lapack) (G : GridTopo) (dt : Rat) (F : Forces) (zc : List Rat) (cq : Quantities) (trans gravcap cpress wpress porevol : List Rat) (h : Data) : M (Data × Bool) := do
  let sa ← vectorZero h.J.nnz h.sys.sa
  let b ← vectorZero h.J.m h.sys.b
  let face ← compFlux G cq.np cpress trans cq.phasemobf gravcap cq.Af h.face
  let r ← cells lu G h.J dt zc cq porevol face ({ sa := sa, b := b }, true)
  let w ← wellsPart lu F dt cq cpress wpress h r.1
  let s ← srcPart F dt cq.np h w.1
  let sa ← scaleFirst (w.2.1 && r.2) 2 s.sa
  .ok ({ h with sys := { s with sa := sa }, incomp := r.2, face := face, perf := w.2.2 }, w.2.1 && r.2)

/-- `cfs_tpfa_res_comprock_assemble(…)`.  Models: `cfs_tpfa_residual.c:1278-1339`. -/
def comprockAssemble (lu : Lapack) (G : GridTopo) (dt : Rat) (F : Forces) (zc : List Rat) (cq : Quantities) (trans gravcap cpress wpress porevol porevol0 rockComp : List Rat) (h : Data) :
    M (Data × Bool) := do
  let r ← assemble lu G dt F zc cq trans gravcap cpress wpress porevol0 h
  let h := r.1
  let sa ← scaleFirst r.2 (1 / 2) h.sys.sa
  let t ← loop G.nc (fun c (t : Sys × Bool) => do
    let j ← elmIndex c c h.J.ia h.J.ja
    let pv ← rd porevol c
    let pv0 ← rd porevol0 c
    let rc ← rd rockComp c
    let s ← addSa j (pv * rc) t.1
    let s ← addB c (pv - pv0) s
    .ok (s, t.2 && decide (pv - pv0 = 0 ∧ rc = 0))) ({ h.sys with sa := sa }, true)
  let sa ← scaleFirst (t.2 && r.2) 2 t.1.sa
  .ok ({ h with sys := { t.1 with sa := sa } }, t.2 && r.2)

/-- `compute_flux(G, np, trans, pmobf, gravcap_f, cpress, fflux)`.  Models: `cfs_tpfa_residual.c:1031-1081`. -/
def computeFlux (G : GridTopo) (np : Nat) (trans pmobf gravcap cpress fflux : List Rat) : M (List Rat) :=
  loop G.nf (fun f fflux => do
    let c1 ← rd G.faceCells (2 * f)
    let c2 ← rd G.faceCells (2 * f + 1)
    let mob ← block pmobf (f * np) np
    let gc ← block gravcap (f * np) np
    let t := sumN np mob
    let g := sumN np (fun p => mob p * gc p)
    let dp ← if 0 ≤ c1 ∧ 0 ≤ c2 then do
        let p1 ← rd cpress c1.toNat
        let p2 ← rd cpress c2.toNat
        .ok (p1 - p2)
      else fdiv (-g) t
    let tr ← rd trans f
    wr fflux f (tr * (t * dp + g))) fflux

/-- `compute_wflux(np, wells, pmobc, cpress, wpress, wflux)`.  Models: `cfs_tpfa_residual.c:1084-1124`. -/
def computeWflux (np : Nat) (W : Wells.W) (D : Completions) (pmobc cpress wpress wflux : List Rat) : M (List Rat) :=
  rowLoopPre W.nw W.connpos (fun w => rd wpress w) (fun _ pw i wflux => do
    let c ← rd W.cells i
    let c ← index c
    let d ← rd D.wdp i
    let p ← rd cpress c
    let dp := pw + d - p
    let mob ← if 0 < dp then block D.phasemob (i * np) np else block pmobc (c * np) np
    let wi ← rd W.wi i
    wr wflux i (wi * sumN np mob * dp)) wflux

/-- `cfs_tpfa_res_flux(…)`.  Models: `cfs_tpfa_residual.c:1342-1365`. -/
def flux (G : GridTopo) (F : Forces) (np : Nat) (trans pmobc pmobf gravcap cpress : List Rat) (wpress : Option (List Rat)) (fflux : List Rat) (wflux : Option (List Rat)) :
    M (List Rat × Option (List Rat)) := do
  let fflux ← computeFlux G np trans pmobf gravcap cpress fflux
  match F.wells, wpress, wflux with
  | some (W, D), some wp, some wf => do
    let wf ← computeWflux np W D pmobc cpress wp wf
    .ok (fflux, some wf)
  | _, _, _ => .ok (fflux, wflux)

/-- `compute_fpress(…)` for `cfs_tpfa_res_fpress`.  Models: `cfs_tpfa_residual.c:974-1027`, `:1368-1383`. -/
def fpress (G : GridTopo) (htrans cpress fpress : List Rat) (h : Data) : M (List Rat × Data) := do
  let sc ← vectorZero G.nf h.scratch
  let fp ← vectorZero G.nf fpress
  let r ← rowLoop G.nc G.cellFacepos (fun c i (r : List Rat × List Rat) => do
    let f ← rd G.cellFaces i
    let t ← rd htrans i
    let p ← rd cpress c
    let sc ← addAt r.1 f t
    let fp ← addAt r.2 f (t * p)
    .ok (sc, fp)) (sc, fp)
  let fp ← loop G.nf (fun f fp => do
    let v ← rd fp f
    let d ← rd r.1 f
    let q ← fdiv v d
    wr fp f q) r.2
  .ok (fp, { h with scratch := r.1 })

end Opm.CfsTpfa
