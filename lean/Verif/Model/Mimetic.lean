import Mathlib.Algebra.Field.Defs
import Verif.Core.Mem
import Verif.Core.RowLoop
import Verif.Model.Hybsys
/-!
# Mimetic inner products

Models `opm/core/pressure/mimetic/mimetic.c`.

Simplifications.  Numbers are elements of an arbitrary field, as the orthonormalisation needs square roots.  The two LAPACK calls that orthonormalise the columns of a matrix (`dgeqrf_`, `dorgqr_`) are a
function `qr` of the model; the theorems assume of it what the routines document.  The BLAS routines `dgemm_` and `dsyrk_` are modelled by their documented effect with all reads and writes checked.  An
array argument `&a[o]` is an array with an offset.  Allocation always succeeds; allocated memory has the contents `junk`.
-/

namespace Opm.Mimetic
open Opm

variable {K : Type} [Field K] [DecidableEq K]

/-- `for (j = 0; j < m; j++) for (i = a(j); i < b(j); i++) X[o + i + j*ld] = g(i, j, X)`: the shape of all the loops over matrices below. -/
def region (m : Nat) (a b : Nat → Nat) (ld o : Nat) (g : Nat → Nat → List K → M K) (X : List K) : M (List K) :=
  loop m (fun j X => forRange (a j) (b j) (fun i X => do
    let v ← g i j X
    wr X (o + (i + j * ld)) v) X) X

/-- `Σ_k x[ox + k*ix] * y[oy + k*iy]`, `k < n`: the sums of the BLAS routines. -/
def sdot (n : Nat) (x : List K) (ox ix : Nat) (y : List K) (oy iy : Nat) : M K :=
  loop n (fun k s => do
    let a ← rd x (ox + k * ix)
    let b ← rd y (oy + k * iy)
    .ok (s + a * b)) 0

/-- Step 1: `X` becomes the unit matrix.  Models: `mimetic.c:113-119`. -/
def unitMatrix (nf nconn oX : Nat) (X : List K) : M (List K) :=
  loop nf (fun j X => do
    let X ← loop nf (fun i X => wr X (oX + (i + j * nconn)) 0) X
    wr X (oX + j * (nconn + 1)) 1) X

/-- The scaling `C <- A * C`.  Models: `mimetic.c:122-126`. -/
def scaleRows (nf d : Nat) (A C : List K) : M (List K) :=
  region d (fun _ => 0) (fun _ => nf) nf 0 (fun i j C => do
    let x ← rd C (0 + (i + j * nf))
    let a ← rd A i
    .ok (x * a)) C

/-- `dsyrk_("Upper Triangular", "No Transpose", &m, &n, &a1, C, &ldC, &a2, X, &ldX)` with `a1 = -1`, `a2 = 1`.  Models: `mimetic.c:133-136`. -/
def syrk (nf nconn d oX : Nat) (C X : List K) : M (List K) :=
  region nf (fun _ => 0) (fun j => j + 1) nconn oX (fun i j X => do
    let s ← sdot d C i nf C j nf
    let x ← rd X (oX + (i + j * nconn))
    .ok (-1 * s + 1 * x)) X

/-- The scaling of the upper triangle.  Models: `mimetic.c:137-141`. -/
def scaleUpper (nf nconn oX : Nat) (A X : List K) : M (List K) :=
  region nf (fun _ => 0) (fun j => j + 1) nconn oX (fun i j X => do
    let x ← rd X (oX + (i + j * nconn))
    let a ← rd A i
    let b ← rd A j
    .ok (x * (a * b))) X

/-- The lower triangle.  Models: `mimetic.c:144-148`. -/
def mirror (nf nconn oX : Nat) (X : List K) : M (List K) :=
  region nf (fun j => j + 1) (fun _ => nf) nconn oX (fun i j X => rd X (oX + (j + i * nconn))) X

/-- `mim_ip_span_nullspace(nf, nconn, d, C, A, &X[oX], work, nwork)`: the new `C` and `X`.  Models: `mimetic.c:95-149`. -/
def spanNullspace (qr : Nat → Nat → List K → List K) (nf nconn d oX : Nat) (C A X : List K) : M (List K × List K) := do
  let X ← unitMatrix nf nconn oX X
  let C ← scaleRows nf d A C
  let C := qr nf d C
  let X ← syrk nf nconn d oX C X
  let X ← scaleUpper nf nconn oX A X
  let X ← mirror nf nconn oX X
  .ok (C, X)

/-- The trace of the permeability.  Models: `mimetic.c:171-174`. -/
def trace (d oK : Nat) (perm : List K) : M K :=
  loop d (fun i t => do
    let k ← rd perm (oK + (i + i * d))
    .ok (t + k)) 0

/-- A floating-point division. -/
def divK (a b : K) : M K := if b = 0 then .error .nonFinite else .ok (a / b)

/-- `mim_ip_linpress_exact(nf, nconn, d, vol, &K[oK], N, &Binv[oX], work, lwork)`: the new `Binv` and `work`.  Models: `mimetic.c:153-192`. -/
def linpressExact (nf nconn d : Nat) (vol : K) (perm : List K) (oK : Nat) (N Binv : List K) (oX : Nat) (work : List K) (lwork : Nat) : M (List K × List K) := do
  check (decide (d * nf ≤ lwork))
  let t ← trace d oK perm
  let work ← region d (fun _ => 0) (fun _ => nf) nf 0 (fun i j _ => sdot d N i nf perm (oK + j * d) 1) work
  let a1 ← divK 1 vol
  let a2 ← divK (6 * t) ((d : K) * vol)
  let Binv ← region nf (fun _ => 0) (fun _ => nf) nconn oX (fun i j X => do
    let s ← sdot d work i nf N j nf
    let x ← rd X (oX + (i + j * nconn))
    .ok (a1 * s + a2 * x)) Binv
  .ok (Binv, work)

/-- The arrays of `mim_ip_simple_all`. -/
structure Work (K : Type) where
  /-- `Binv` -/
  Binv : List K
  /-- `C` -/
  C : List K
  /-- `N` -/
  N : List K
  /-- `A` -/
  A : List K
  /-- `work` -/
  work : List K
  /-- `cc` -/
  cc : List K

/-- `mim_ip_simple(nf, nconn, d, v, &K[oK], C, A, N, &Binv[oX], work, lwork)`.  Models: `mimetic.c:79-91`. -/
def ipSimple (qr : Nat → Nat → List K → List K) (nf nconn d : Nat) (v : K) (perm : List K) (oK oX lwork : Nat) (w : Work K) : M (Work K) := do
  let r ← spanNullspace qr nf nconn d oX w.C w.A w.Binv
  let u ← linpressExact nf nconn d v perm oK w.N r.2 oX w.work lwork
  .ok { w with C := r.1, Binv := u.1, work := u.2 }

/-- The geometry of the mesh as `mim_ip_simple_all` takes it. -/
structure Geo (K : Type) where
  /-- `fneighbour` -/
  fneighbour : List Int
  /-- `fcentroid` -/
  fcentroid : List K
  /-- `fnormal` -/
  fnormal : List K
  /-- `farea` -/
  farea : List K
  /-- `ccentroid` -/
  ccentroid : List K
  /-- `cvol` -/
  cvol : List K
  /-- `perm` -/
  perm : List K

/-- The matrices of half face `i` of a cell.  Models: `mimetic.c:59-69`. -/
def halfFace (d nconn p1 : Nat) (conn : List Nat) (g : Geo K) (c i : Nat) (w : Work K) : M (Work K) := do
  let f ← rd conn (p1 + i)
  let nb ← rd g.fneighbour (2 * f)
  let s : K := if nb = (c : Int) then 1 else -1
  let a ← rd g.farea f
  let A ← wr w.A i a
  let CN ← loop d (fun j (CN : List K × List K) => do
    let x ← rd g.fcentroid (j + f * d)
    let y ← rd w.cc j
    let C ← wr CN.1 (i + j * nconn) (x - y)
    let n ← rd g.fnormal (j + f * d)
    let N ← wr CN.2 (i + j * nconn) (s * n)
    .ok (C, N)) (w.C, w.N)
  .ok { w with A := A, C := CN.1, N := CN.2 }

/-- One cell of `mim_ip_simple_all`.  Models: `mimetic.c:52-75`. -/
def ipCell (qr : Nat → Nat → List K → List K) (d lwork : Nat) (conn : List Nat) (g : Geo K) (c nconn p1 p2 : Nat) (w : Work K) : M (Work K) := do
  let cc ← loop d (fun j cc => do
    let x ← rd g.ccentroid (j + c * d)
    wr cc j x) w.cc
  let w ← loop nconn (halfFace d nconn p1 conn g c) { w with cc := cc }
  let v ← rd g.cvol c
  ipSimple qr nconn nconn d v g.perm (c * d * d) p2 lwork w

/-- `mim_ip_simple_all(ncells, d, max_nconn, pconn, conn, ...)`: the new `Binv`.  Models: `mimetic.c:28-76`. -/
def ipSimpleAll (qr : Nat → Nat → List K → List K) (junk : Nat → K) (nc d maxNconn : Nat) (pconn conn : List Nat) (g : Geo K) (Binv : List K) : M (List K) := do
  let lwork := 64 * (maxNconn * d)
  let w ← Hybsys.cells nc pconn (ipCell qr d lwork conn g) { Binv := Binv, C := (List.range (maxNconn * d)).map junk, N := (List.range (maxNconn * d)).map junk, A := (List.range maxNconn).map junk, work := (List.range lwork).map junk, cc := [0, 0, 0] }
  .ok w.Binv

/-- `mim_ip_compute_gpress(nc, d, grav, pconn, conn, fcentroid, ccentroid, gpress)`.  Models: `mimetic.c:196-219`. -/
def computeGpress (nc d : Nat) (grav : List K) (pconn conn : List Nat) (fcentroid ccentroid gpress : List K) : M (List K) :=
  rowLoop nc pconn (fun c i a => do
    let f ← rd conn i
    let a ← wr a i 0
    loop d (fun j a => do
      let x ← rd a i
      let g ← rd grav j
      let u ← rd fcentroid (f * d + j)
      let v ← rd ccentroid (c * d + j)
      wr a i (x + g * (u - v))) a) gpress

/-- `mim_ip_mobility_update(nc, pconn, totmob, Binv0, Binv)`.  Models: `mimetic.c:223-239`. -/
def mobilityUpdate (nc : Nat) (pconn : List Nat) (totmob Binv0 Binv : List K) : M (List K) :=
  Hybsys.cells nc pconn (fun c n _ p2 B => loop (n * n) (fun i B => do
    let m ← rd totmob c
    let b ← rd Binv0 (p2 + i)
    wr B (p2 + i) (m * b)) B) Binv

/-- `mim_ip_density_update(nc, pconn, omega, gpress0, gpress)`.  Models: `mimetic.c:243-253`. -/
def densityUpdate (nc : Nat) (pconn : List Nat) (omega gpress0 gpress : List K) : M (List K) :=
  rowLoop nc pconn (fun c i a => do
    let w ← rd omega c
    let g ← rd gpress0 i
    wr a i (w * g)) gpress

end Opm.Mimetic
