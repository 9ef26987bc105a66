import Verif.Core.Mem
import Verif.Core.RowLoop
import Verif.Model.SparseSys
import Verif.Model.IfsTpfa
/-!
# Local elimination of hybrid pressure systems

Models `opm/core/pressure/mimetic/hybsys.c` (Schur complements, cell contributions and back substitution), the assembly routine of
`opm/core/pressure/mimetic/hybsys_global.c` for cells, the assembly loop over the cells of `opm/core/pressure/ifsh.c` and `cfsh.c` with the
boundary conditions of `fsh_common_impl.c`, and `fsh_press_flux` of `opm/core/pressure/fsh.c` without wells.

Simplifications.  The BLAS routines called (`dgemv_`, `ddot_`, `daxpy_`, `dsyrk_`, `dgemm_`) are modelled by their documented effect on the part of the
arrays they are given, with the reads and writes checked.  Numbers are rational.  The differences `pconn[c + 1] - pconn[c]` are natural numbers.  In the
symmetric structure `F2` and `F1` are the same array (`hybsys.c:45-66`); the model sets both.  Allocation always succeeds.
-/

namespace Opm.Hybsys
open Opm.SparseSys

/-- `struct hybsys`.  Models: `hybsys.h:43-62`. -/
structure Sys where
  /-- `L[c]` -/
  L : List Rat
  /-- `q[c]` -/
  q : List Rat
  /-- `F1[i]`, per half face -/
  F1 : List Rat
  /-- `F2[i]`, per half face -/
  F2 : List Rat
  /-- `r`, for one cell -/
  r : List Rat
  /-- `S`, for one cell -/
  S : List Rat
  /-- `one` -/
  one : List Rat
deriving Repr, DecidableEq

/-- `ddot_(&n, &x[ox], 1, &y[oy], 1)`. -/
def dot (n : Nat) (x : List Rat) (ox : Nat) (y : List Rat) (oy : Nat) : M Rat :=
  loop n (fun i s => do
    let a ← rd x (ox + i)
    let b ← rd y (oy + i)
    .ok (s + a * b)) 0

/-- `dgemv_("No Transpose", &n, &n, &alpha, &A[oA], &n, &x[ox], 1, &beta, &y[oy], 1)`: with `beta = 0` the old `y` is not read. -/
def gemv (n : Nat) (alpha : Rat) (A : List Rat) (oA : Nat) (x : List Rat) (ox : Nat) (beta : Rat) (y : List Rat) (oy : Nat) : M (List Rat) :=
  loop n (fun i y => do
    let s ← loop n (fun j s => do
      let a ← rd A (oA + (i + j * n))
      let b ← rd x (ox + j)
      .ok (s + a * b)) 0
    if beta = 0 then wr y (oy + i) (alpha * s)
    else do
      let t ← rd y (oy + i)
      wr y (oy + i) (alpha * s + beta * t)) y

/-- `daxpy_(&n, &alpha, &x[ox], 1, &y[oy], 1)`. -/
def axpy (n : Nat) (alpha : Rat) (x : List Rat) (ox : Nat) (y : List Rat) (oy : Nat) : M (List Rat) :=
  loop n (fun i y => do
    let a ← rd x (ox + i)
    let b ← rd y (oy + i)
    wr y (oy + i) (alpha * a + b)) y

/-- `memcpy(&y[oy], &x[ox], n * sizeof *y)`. -/
def copy (n : Nat) (x : List Rat) (ox : Nat) (y : List Rat) (oy : Nat) : M (List Rat) :=
  loop n (fun i y => do
    let a ← rd x (ox + i)
    wr y (oy + i) a) y

/-- `hybsys_init(max_nconn, sys)`.  Models: `hybsys.c:233-242`. -/
def init (maxNconn : Nat) (s : Sys) : M Sys := do
  let one ← loop maxNconn (fun i a => wr a i 1) s.one
  .ok { s with one := one }

/-- The loop over the cells common to the Schur complements: `f` is given the cell, the number of its connections and the positions of its
half faces and of its block of the inner product.  Models: `hybsys.c:260-275`. -/
def cells {σ : Type} (nc : Nat) (pconn : List Nat) (f : Nat → Nat → Nat → Nat → σ → M σ) (s : σ) : M σ := do
  let r ← loop nc (fun c (t : σ × Nat) => do
    let p1 ← rd pconn c
    let e ← rd pconn (c + 1)
    let u ← f c (e - p1) p1 t.2 t.1
    .ok (u, t.2 + (e - p1) * (e - p1))) (s, 0)
  .ok r.1

/-- One cell of `hybsys_schur_comp_symm`.  Models: `hybsys.c:265-272`. -/
def schurSymmCell (Binv : List Rat) (c n p1 p2 : Nat) (s : Sys) : M Sys := do
  let F1 ← gemv n 1 Binv p2 s.one 0 0 s.F1 p1
  let l ← dot n s.one 0 F1 p1
  let L ← wr s.L c l
  .ok { s with F1 := F1, F2 := F1, L := L }

/-- `hybsys_schur_comp_symm(nc, pconn, Binv, sys)`.  Models: `hybsys.c:246-276`. -/
def schurSymm (nc : Nat) (pconn : List Nat) (Binv : List Rat) (s : Sys) : M Sys :=
  cells nc pconn (schurSymmCell Binv) s

/-- One cell of `hybsys_schur_comp_unsymm`.  Models: `hybsys.c:304-318`. -/
def schurUnsymmCell (Binv BIV P : List Rat) (c n p1 p2 : Nat) (s : Sys) : M Sys := do
  let F1 ← gemv n 1 Binv p2 s.one 0 0 s.F1 p1
  let F2 ← copy n F1 p1 s.F2 p1
  let F2 ← axpy n (-1) BIV p1 F2 p1
  let l ← dot n s.one 0 F1 p1
  let v ← dot n s.one 0 BIV p1
  let p ← rd P c
  let L ← wr s.L c (l - v - p)
  .ok { s with F1 := F1, F2 := F2, L := L }

/-- `hybsys_schur_comp_unsymm(nc, pconn, Binv, BIV, P, sys)`.  Models: `hybsys.c:280-322`. -/
def schurUnsymm (nc : Nat) (pconn : List Nat) (Binv BIV P : List Rat) (s : Sys) : M Sys :=
  cells nc pconn (schurUnsymmCell Binv BIV P) s

/-- One cell of `hybsys_schur_comp_gen`.  Models: `hybsys.c:350-363`. -/
def schurGenCell (Binv C2 P : List Rat) (c n p1 p2 : Nat) (s : Sys) : M Sys := do
  let F1 ← gemv n 1 Binv p2 s.one 0 0 s.F1 p1
  let F2 ← gemv n 1 Binv p2 C2 p1 0 s.F2 p1
  let l ← dot n s.one 0 F2 p1
  let p ← rd P c
  let L ← wr s.L c (l - p)
  .ok { s with F1 := F1, F2 := F2, L := L }

/-- `hybsys_schur_comp_gen(nc, pconn, Binv, C2, P, sys)`.  Models: `hybsys.c:326-367`. -/
def schurGen (nc : Nat) (pconn : List Nat) (Binv C2 P : List Rat) (s : Sys) : M Sys :=
  cells nc pconn (schurGenCell Binv C2 P) s

/-- `dsyrk_("Upper Triangular", "No Transpose", &n, &k, &alpha, F, &n, &1, S, &n)` with one column. -/
def syrkUpper (n : Nat) (alpha : Rat) (F : List Rat) (oF : Nat) (S : List Rat) : M (List Rat) :=
  loop n (fun j S => loop (j + 1) (fun i S => do
    let a ← rd F (oF + i)
    let b ← rd F (oF + j)
    let x ← rd S (i + j * n)
    wr S (i + j * n) (alpha * a * b + x)) S) S

/-- The lower triangle is set to the upper one.  Models: `hybsys.c:411-415`. -/
def mirror (n : Nat) (S : List Rat) : M (List Rat) :=
  loop n (fun j S => forRange (j + 1) n (fun i S => do
    let x ← rd S (j + i * n)
    wr S (i + j * n) x) S) S

/-- `hybsys_cellmat_symm_core(nconn, &Binv[p2], L, &F[p1], S)`.  Models: `hybsys.c:390-416`. -/
def cellmatSymm (n : Nat) (Binv : List Rat) (p2 : Nat) (L : Rat) (F : List Rat) (p1 : Nat) (S : List Rat) : M (List Rat) := do
  let S ← copy (n * n) Binv p2 S 0
  let a ← fdiv (-1) L
  let S ← syrkUpper n a F p1 S
  mirror n S

/-- `hybsys_cellmat_unsymm_core(nconn, &Binv[p2], L, &F1[p1], &F2[p1], S)`.  Models: `hybsys.c:420-443`. -/
def cellmatUnsymm (n : Nat) (Binv : List Rat) (p2 : Nat) (L : Rat) (F1 F2 : List Rat) (p1 : Nat) (S : List Rat) : M (List Rat) := do
  let S ← copy (n * n) Binv p2 S 0
  let al ← fdiv (-1) L
  loop n (fun j S => loop n (fun i S => do
    let a ← rd F1 (p1 + i)
    let b ← rd F2 (p1 + j)
    let x ← rd S (i + j * n)
    wr S (i + j * n) (al * a * b + x)) S) S

/-- `hybsys_cellrhs_core(nconn, &gpress[p1], src, &Binv[p2], L, &F1[p1], &F2[p1], R)`: the new `R` and the value returned.
Models: `hybsys.c:447-474`. -/
def cellrhs (n : Nat) (gpress : List Rat) (p1 : Nat) (src : Rat) (Binv : List Rat) (p2 : Nat) (L : Rat) (F1 F2 R : List Rat) : M (List Rat × Rat) := do
  let R ← gemv n 1 Binv p2 gpress p1 0 R 0
  let d ← dot n F2 p1 gpress p1
  let a ← fdiv (src - d) L
  let R ← axpy n a F1 p1 R 0
  .ok (R, src - d)

/-- `hybsys_cellcontrib_symm(c, nconn, p1, p2, gpress, src, Binv, sys)`.  Models: `hybsys.c:478-491`. -/
def cellcontribSymm (c n p1 p2 : Nat) (gpress src Binv : List Rat) (s : Sys) : M Sys := do
  let L ← rd s.L c
  let S ← cellmatSymm n Binv p2 L s.F1 p1 s.S
  let b ← rd src c
  let x ← cellrhs n gpress p1 b Binv p2 L s.F1 s.F1 s.r
  let q ← wr s.q c x.2
  .ok { s with S := S, r := x.1, q := q }

/-- `hybsys_cellcontrib_unsymm(c, nconn, p1, p2, gpress, src, Binv, sys)`.  Models: `hybsys.c:495-511`. -/
def cellcontribUnsymm (c n p1 p2 : Nat) (gpress src Binv : List Rat) (s : Sys) : M Sys := do
  let L ← rd s.L c
  let S ← cellmatUnsymm n Binv p2 L s.F1 s.F2 p1 s.S
  let b ← rd src c
  let x ← cellrhs n gpress p1 b Binv p2 L s.F1 s.F2 s.r
  let q ← wr s.q c x.2
  .ok { s with S := S, r := x.1, q := q }

/-- The contribution of a cell: which of the two routines is called.  Models: `ifsh.c:84`, `cfsh.c:57`. -/
def contrib (unsymm : Bool) (c n p1 p2 : Nat) (gpress src Binv : List Rat) (s : Sys) : M Sys :=
  if unsymm then cellcontribUnsymm c n p1 p2 gpress src Binv s else cellcontribSymm c n p1 p2 gpress src Binv s

/-- The arrays `hybsys_compute_press_flux` writes. -/
structure Out where
  /-- `press` -/
  press : List Rat
  /-- `flux`, per half face -/
  flux : List Rat
  /-- `work` -/
  work : List Rat
deriving Repr, DecidableEq

/-- One cell of `hybsys_compute_press_flux`.  Models: `hybsys.c:602-623`. -/
def pressFluxCell (conn : List Nat) (gpress Binv : List Rat) (s : Sys) (pi : List Rat) (c n p1 p2 : Nat) (o : Out) : M Out := do
  let work ← loop n (fun i w => do
    let f ← rd conn (p1 + i)
    let x ← rd pi f
    wr w i x) o.work
  let q ← rd s.q c
  let d ← dot n s.F2 p1 work 0
  let L ← rd s.L c
  let p ← fdiv (q + d) L
  let press ← wr o.press c p
  let work ← loop n (fun i w => do
    let g ← rd gpress (p1 + i)
    let x ← rd w i
    wr w i (g + p - x)) work
  let flux ← gemv n 1 Binv p2 work 0 0 o.flux p1
  .ok { press := press, flux := flux, work := work }

/-- `hybsys_compute_press_flux(nc, pconn, conn, gpress, Binv, sys, pi, press, flux, work)`.  Models: `hybsys.c:580-627`. -/
def pressFlux (nc : Nat) (pconn conn : List Nat) (gpress Binv : List Rat) (s : Sys) (pi : List Rat) (o : Out) : M Out :=
  cells nc pconn (pressFluxCell conn gpress Binv s pi) o

/-- `hybsys_global_assemble_cell(nconn, &conn[p1], S, r, A, b)`.  Models: `hybsys_global.c:330-361`. -/
def assembleCell (n : Nat) (conn : List Nat) (p1 : Nat) (S r : List Rat) (A : Csr) (t : IfsTpfa.Sys) : M IfsTpfa.Sys :=
  loop n (fun il t => do
    let ig ← rd conn (p1 + il)
    check (decide (ig < A.m))
    let t ← loop n (fun jl t => do
      let g ← rd conn (p1 + jl)
      let jg ← elmIndex ig g A.ia A.ja
      let x ← rd S (il + jl * n)
      IfsTpfa.addSa jg x t) t
    let y ← rd r il
    IfsTpfa.addB ig y t) t

/-- `fsh_map_bdry_condition(fbc, pimpl)`: for each face the number of its condition, or `-1`.  The number of faces is the length of the array.
Models: `fsh_common_impl.c:198-224`. -/
def mapBdry (nf : Nat) (bc : Option FlowBc.Bcs) : M (List Int) :=
  match bc with
  | none => .ok (List.replicate nf (-1))
  | some bc => do
    let z ← rd bc.condPos 0
    check (decide (z = 0))
    rowLoop bc.nbc bc.condPos (fun i j a => do
      let f ← rd bc.face j
      check (decide (0 ≤ f ∧ f < (nf : Int)))
      wrI a f (i : Int)) (List.replicate nf (-1))

/-- `fsh_explicit_elimination(n, npp, locdof, dofval, S, r)` with the pairs of `locdof` and `dofval` in a list.
Models: `fsh_common_impl.c:68-91`. -/
def eliminate (n : Nat) (D : List (Nat × Rat)) (S r : List Rat) : M (List Rat × List Rat) :=
  D.foldlM (fun (u : List Rat × List Rat) d => do
    let u ← loop (n - 1) (fun k (u : List Rat × List Rat) => do
      let p := (d.1 + 1 + k) % n
      let x ← rd u.1 (p + d.1 * n)
      let y ← rd u.2 p
      let r ← wr u.2 p (y - x * d.2)
      let S ← wr u.1 (p + d.1 * n) 0
      let S ← wr S (d.1 + p * n) 0
      .ok (S, r)) u
    let x ← rd u.1 (d.1 * (n + 1))
    let r ← wr u.2 d.1 (x * d.2)
    .ok (u.1, r)) (S, r)

/-- The condition of one connection: a pressure is noted for the elimination, a flux is subtracted.  Models: `fsh_common_impl.c:169-183`. -/
def bcStep (conn : List Nat) (p1 : Nat) (bcond : List Int) (ty : List FlowBc.BcType) (value : List Rat) (i : Nat) (u : List (Nat × Rat) × List Rat) :
    M (List (Nat × Rat) × List Rat) := do
  let f ← rd conn (p1 + i)
  let j ← rd bcond f
  if j ≠ -1 then do
    let t ← rdI ty j
    match t with
    | .pressure => do
      let v ← rdI value j
      .ok (u.1 ++ [(i, v)], u.2)
    | .fluxTotvol => do
      let v ← rdI value j
      let x ← rd u.2 i
      let r ← wr u.2 i (x - v)
      .ok (u.1, r)
    | .noflow => .ok u
  else .ok u

/-- `fsh_impose_bc(nconn, &conn[p1], bc, pimpl)`; the arrays `work` and `iwork` are a list of pairs.  Models: `fsh_common_impl.c:160-194`. -/
def imposeBc (n : Nat) (conn : List Nat) (p1 : Nat) (bcond : List Int) (ty : List FlowBc.BcType) (value : List Rat) (s : Sys) : M Sys := do
  let u ← loop n (bcStep conn p1 bcond ty value) ([], s.r)
  if 0 < u.1.length then do
    let w ← eliminate n u.1 s.S u.2
    .ok { s with S := w.1, r := w.2 }
  else .ok { s with r := u.2 }

/-- `ifsh_assemble_grid` (`unsymm = false`) and `cfsh_assemble_grid` (`unsymm = true`): the contributions of all cells are formed, adapted to the
boundary conditions and assembled.  The number of prescribed pressures returned is left out.  The running position `p1` is the sum of the numbers of
connections so far, `pgconn[c]` for `pgconn[0] = 0`.  Models: `ifsh.c:63-102`, `cfsh.c:36-73`. -/
def assembleGrid (unsymm : Bool) (nc : Nat) (pconn conn : List Nat) (gpress src Binv : List Rat) (bcond : List Int) (ty : List FlowBc.BcType)
    (value : List Rat) (A : Csr) (s : Sys) (t : IfsTpfa.Sys) : M (Sys × IfsTpfa.Sys) :=
  cells nc pconn (fun c n p1 p2 (u : Sys × IfsTpfa.Sys) => do
    let s ← contrib unsymm c n p1 p2 gpress src Binv u.1
    let s ← imposeBc n conn p1 bcond ty value s
    let t ← assembleCell n conn p1 s.S s.r A u.2
    .ok (s, t)) (s, t)

/-- The projection of the half face fluxes on the faces.  Models: `fsh.c:75-92`. -/
def faceFlux (nc nf : Nat) (pconn conn : List Nat) (faceCells : List Int) (cflux : List Rat) : M (List Rat) := do
  let fflux ← rowLoop nc pconn (fun c i a => do
    let f ← rd conn i
    let c1 ← rd faceCells (2 * f)
    let v ← rd cflux i
    addAt a f ((2 * (if c1 = (c : Int) then 1 else 0) - 1) * v)) (List.replicate nf 0)
  loop nf (fun f a => do
    let c1 ← rd faceCells (2 * f)
    let c2 ← rd faceCells (2 * f + 1)
    let x ← rd a f
    let y ← fdiv x ((if 0 ≤ c1 then 1 else 0) + (if 0 ≤ c2 then 1 else 0))
    wr a f y) fflux

/-- `count_conn_per_row_grid(G, A)`: the addition of `ia[c + 1] - ia[c] - 1` is written as that many increments.  Models: `hybsys_global.c:103-124`. -/
def countConnGrid (G : GridTopo) (A : Csr) : M Csr := do
  let A ← loop A.m (fun r (A : Csr) => do
    let ia ← wr A.ia (r + 1) 1
    .ok { A with ia := ia }) A
  rowLoop G.nc G.cellFacepos (fun c i A => do
    let f ← rd G.cellFaces i
    let p ← rd G.cellFacepos c
    let e ← rd G.cellFacepos (c + 1)
    loop (e - p - 1) (fun _ A => countElm A f) A) A

/-- `fill_grid_connections(G, A)`; face numbers are not negative.  Models: `hybsys_global.c:201-233`. -/
def fillGrid (G : GridTopo) (A : Csr) : M Csr :=
  rowLoop G.nc G.cellFacepos (fun c i A => do
    let f ← rd G.cellFaces i
    let p ← rd G.cellFacepos c
    let e ← rd G.cellFacepos (c + 1)
    loop (e - p - 1) (fun k A => do
      let g ← rd G.cellFaces (p + (i - p + 1 + k) % (e - p))
      pushElm A f g) A) A

/-- `hybsys_define_globconn(G, NULL)`: no wells.  Models: `hybsys_global.c:275-330`, `186-199`. -/
def defineGlobconn (junk : Nat → Nat) (G : GridTopo) : M Csr := do
  let A ← newCountNnz G.nf
  let A ← countConnGrid G A
  let A ← elmsPushback junk A
  let A ← loop A.m (fun i A => pushElm A i i) A
  let A ← fillGrid G A
  let ja ← sortrows A.m A.ia A.ja
  .ok { A with ja := ja }

/-- The largest number of faces of a cell; `INT_MIN` without cells is here zero.  Models: `fsh_common_impl.c:137-153` (`max_ngdof`). -/
def maxNgdof (nc : Nat) (pconn : List Nat) : M Nat :=
  loop nc (fun c m => do
    let p ← rd pconn c
    let e ← rd pconn (c + 1)
    .ok (max m (e - p))) 0

/-- The solver data of `fsh.h`: the parts used without wells. -/
structure Fsh where
  /-- `A` without its values -/
  A : Csr
  /-- `A->sa` and `b` -/
  lin : IfsTpfa.Sys
  /-- `pimpl->sys` -/
  sys : Sys
  /-- `pimpl->cflux` -/
  cflux : List Rat
  /-- `pimpl->work` -/
  work : List Rat

/-- `ifsh_construct(G, NULL)` with `hybsys_allocate_symm`: the new arrays have arbitrary contents `jd`.  In the symmetric structure `F2` is the array `F1`.
Models: `ifsh.c:256-341`, `hybsys.c:39-64`, the sizes of `fsh_common_impl.c:228-330`. -/
def ifshConstruct (junk : Nat → Nat) (jd : Nat → Rat) (G : GridTopo) : M Fsh := do
  let A ← defineGlobconn junk G
  let mx ← maxNgdof G.nc G.cellFacepos
  let tot ← rd G.cellFacepos G.nc
  let arr := fun n => (List.range n).map jd
  let sys ← init mx { L := arr G.nc, q := arr G.nc, F1 := arr tot, F2 := arr tot, r := arr mx, S := arr (mx * mx), one := arr mx }
  .ok { A := A, lin := { sa := arr A.nnz, b := arr A.m }, sys := sys, cflux := arr tot, work := arr mx }

/-- The sum of the values returned by `fsh_impose_bc`: the number of half faces with a prescribed pressure.  Models: `fsh_common_impl.c:174-178`,
`ifsh.c:87`. -/
def numPressure (nc : Nat) (pconn conn : List Nat) (bcond : List Int) (ty : List FlowBc.BcType) : M Nat :=
  rowLoop nc pconn (fun _ i n => do
    let f ← rd conn i
    let j ← rd bcond f
    if j ≠ -1 then do
      let t ← rdI ty j
      .ok (if t = .pressure then n + 1 else n)
    else .ok n) 0

/-- `bc->type`, with no conditions if `bc` is null. -/
def bcTypes : Option FlowBc.Bcs → List FlowBc.BcType
  | none => []
  | some b => b.type

/-- `bc->value`, with no conditions if `bc` is null. -/
def bcValues : Option FlowBc.Bcs → List Rat
  | none => []
  | some b => b.value

/-- Without a prescribed pressure the first matrix element is doubled.  Models: `ifsh.c:387-389`, `cfsh.c:207-209`. -/
def doubleFirst (npp : Nat) (sa : List Rat) : M (List Rat) :=
  if npp = 0 then do
    let x ← rd sa 0
    wr sa 0 (x * 2)
  else .ok sa

/-- `ifsh_assemble(bc, src, Binv, gpress, ...)` without wells.  Models: `ifsh.c:353-390`. -/
def ifshAssemble (G : GridTopo) (bc : Option FlowBc.Bcs) (src Binv gpress : List Rat) (h : Fsh) : M Fsh := do
  let bcond ← mapBdry G.nf bc
  let ty := bcTypes bc
  let value := bcValues bc
  let s ← schurSymm G.nc G.cellFacepos Binv h.sys
  let u ← assembleGrid false G.nc G.cellFacepos G.cellFaces gpress src Binv bcond ty value h.A s h.lin
  let npp ← numPressure G.nc G.cellFacepos G.cellFaces bcond ty
  let sa ← doubleFirst npp u.2.sa
  .ok { h with sys := u.1, lin := { sa := sa, b := u.2.b } }

/-- `fsh_press_flux(G, Binv, gpress, h, cpress, fflux, ...)` without wells, with the solution `x` of the linear system: cell pressures and face fluxes.
Models: `fsh.c:41-93`. -/
def fshPressFlux (G : GridTopo) (Binv gpress : List Rat) (h : Fsh) (x cpress : List Rat) : M (Out × List Rat) := do
  let o ← pressFlux G.nc G.cellFacepos G.cellFaces gpress Binv h.sys x { press := cpress, flux := h.cflux, work := h.work }
  let fl ← faceFlux G.nc G.nf G.cellFacepos G.cellFaces G.faceCells o.flux
  .ok (o, fl)

/-- `cfsh_construct(G, W)` with `hybsys_allocate_unsymm`: as `ifshConstruct`, with an array `F2` of its own.  Models: `cfsh.c:83-170`, `hybsys.c:69-86`. -/
def cfshConstruct (junk : Nat → Nat) (jd : Nat → Rat) (G : GridTopo) : M Fsh := ifshConstruct junk jd G

/-- `cfsh_assemble(bc, src, Binv, Biv, P, gpress, ...)`.  Models: `cfsh.c:181-210`. -/
def cfshAssemble (G : GridTopo) (bc : Option FlowBc.Bcs) (src Binv Biv P gpress : List Rat) (h : Fsh) : M Fsh := do
  let s ← schurUnsymm G.nc G.cellFacepos Binv Biv P h.sys
  let bcond ← mapBdry G.nf bc
  let ty := bcTypes bc
  let value := bcValues bc
  let u ← assembleGrid true G.nc G.cellFacepos G.cellFaces gpress src Binv bcond ty value h.A s h.lin
  let npp ← numPressure G.nc G.cellFacepos G.cellFaces bcond ty
  let sa ← doubleFirst npp u.2.sa
  .ok { h with sys := u.1, lin := { sa := sa, b := u.2.b } }

/-- `struct hybsys_well` (`F2` is the same array as `F1`), of which the back substitution needs `F2`.  Models: `hybsys.c:130-145`. -/
structure WellSys where
  /-- `F1`, `F2` -/
  F2 : List Rat
deriving Repr, DecidableEq

/-- `hybsys_well_schur_comp_symm(nc, cwpos, WI, sys, wsys)`.  Models: `hybsys.c:371-386`. -/
def wellSchurSymm (nc : Nat) (cwpos : List Nat) (WI : List Rat) (s : Sys) (w : WellSys) : M (Sys × WellSys) :=
  rowLoop nc cwpos (fun c i (u : Sys × WellSys) => do
    let x ← rd WI i
    let F2 ← wr u.2.F2 i x
    let L ← addAt u.1.L c x
    .ok ({ u.1 with L := L }, { F2 := F2 })) (s, w)

/-- The part of `hybsys_well_cellcontrib_symm` that changes `sys`: `q[c] -= F2(w)*wdp`.  Models: `hybsys.c:563`, `570`. -/
def wellCellcontribQ (c : Nat) (cwpos : List Nat) (wdp : List Rat) (s : Sys) (w : WellSys) : M Sys := do
  let wp1 ← rd cwpos c
  let e ← rd cwpos (c + 1)
  let d ← dot (e - wp1) w.F2 wp1 wdp wp1
  let x ← rd s.q c
  let q ← wr s.q c (x - d)
  .ok { s with q := q }

/-- The arrays `hybsys_compute_press_flux_well` writes. -/
structure WellOut where
  /-- `cpress` -/
  cpress : List Rat
  /-- `cflux` -/
  cflux : List Rat
  /-- `wflux` -/
  wflux : List Rat
  /-- `work` -/
  work : List Rat
deriving Repr, DecidableEq

/-- A cell with `nwconn > 0` wells of `hybsys_compute_press_flux_well`.  Models: `hybsys.c:659-686`. -/
def pressFluxWellCell (nf : Nat) (wconn : List Nat) (Binv WI wdp : List Rat) (s : Sys) (w : WellSys) (pi : List Rat) (c n nw gp1 wp1 gp2 : Nat)
    (o : WellOut) : M WellOut := do
  let work ← loop nw (fun k a => do
    let wg ← rd wconn (2 * (wp1 + k))
    let x ← rd pi (nf + wg)
    wr a k x) o.work
  let d ← dot nw w.F2 wp1 work 0
  let L ← rd s.L c
  let dcp ← fdiv d L
  let p ← rd o.cpress c
  let cpress ← wr o.cpress c (p + dcp)
  let cflux ← gemv n dcp Binv gp2 s.one 0 1 o.cflux gp1
  let wflux ← loop nw (fun k a => do
    let perf ← rd wconn (2 * (wp1 + k) + 1)
    let h ← rd wdp (wp1 + k)
    let x ← rd work k
    let t ← rd WI (wp1 + k)
    wr a perf ((h + (p + dcp) - x) * (-t))) o.wflux
  .ok { cpress := cpress, cflux := cflux, wflux := wflux, work := work }

/-- `hybsys_compute_press_flux_well` without the last statement, which copies the well pressures.  The position in the inner products moves on by
`ngconn + ngconn`, as the code has it.  Models: `hybsys.c:631-690`. -/
def pressFluxWell (nc : Nat) (pgconn : List Nat) (nf : Nat) (pwconn wconn : List Nat) (Binv WI wdp : List Rat) (s : Sys) (w : WellSys) (pi : List Rat)
    (o : WellOut) : M WellOut := do
  let r ← loop nc (fun c (t : WellOut × Nat) => do
    let gp1 ← rd pgconn c
    let ge ← rd pgconn (c + 1)
    let wp1 ← rd pwconn c
    let we ← rd pwconn (c + 1)
    let u ← if 0 < we - wp1 then pressFluxWellCell nf wconn Binv WI wdp s w pi c (ge - gp1) (we - wp1) gp1 wp1 t.2 t.1 else .ok t.1
    .ok (u, t.2 + ((ge - gp1) + (ge - gp1)))) (o, 0)
  .ok r.1

end Opm.Hybsys
