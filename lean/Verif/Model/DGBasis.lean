import Verif.Core.Mem
import Mathlib.Data.Rat.Defs
/-!
# Model of `DGBasis.hpp` and `DGBasis.cpp` (`opm/core/tof`)

Numbers are rational.  A pointer into an array is the rest of the array from there on; the arrays `f_x`, `grad_f_x` and `coefficients` may be longer than what is used of them.
-/

namespace Opm.DGBasis
open Opm

/-- The two classes.  Models: `DGBasis.hpp:111-173` (`DGBasisBoundedTotalDegree`), `DGBasis.hpp:188-251` (`DGBasisMultilin`). -/
inductive Kind where
  | totalDegree
  | multilin
  deriving DecidableEq, Repr

/-- The members of a basis; of the grid, the number of dimensions and the centroids of the cells. -/
structure Basis where
  kind : Kind
  dim : Nat
  degree : Int
  centroids : List Rat
  deriving DecidableEq, Repr

/-- The constructors, the same for both classes.  Models: `DGBasis.cpp:60-71`, `DGBasis.cpp:191-202`. -/
def make (kind : Kind) (dim : Nat) (centroids : List Rat) (degree : Int) : M Basis :=
  if 3 < dim then .error .thrown
  else if 1 < degree ∨ degree < 0 then .error .thrown
  else .ok ⟨kind, dim, degree, centroids⟩

/-- `numBasisFunc`.  Models: `DGBasis.cpp:79-91`, `DGBasis.cpp:210-222`. -/
def numBasis (b : Basis) : M Nat :=
  let d := b.degree.toNat
  match b.kind, b.dim with
  | _, 1 => .ok (d + 1)
  | .totalDegree, 2 => .ok ((d + 2) * (d + 1) / 2)
  | .totalDegree, 3 => .ok ((d + 3) * (d + 2) * (d + 1) / 6)
  | .multilin, 2 => .ok ((d + 1) * (d + 1))
  | .multilin, 3 => .ok ((d + 1) * (d + 1) * (d + 1))
  | _, _ => .error .thrown

/-- `std::fill(a, a + n, v)`. -/
def fill (a : List Rat) (n : Nat) (v : Rat) : M (List Rat) := loop n (fun i a => wr a i v) a

/-- `eval` of `DGBasisBoundedTotalDegree`; case 1 falls through to case 0.  Models: `DGBasis.cpp:108-126`. -/
def evalTotal (b : Basis) (cell : Nat) (x f : List Rat) : M (List Rat) :=
  if b.degree = 1 then do
    let f ← loop b.dim (fun ix f => do
      let xi ← rd x ix
      let ci ← rd b.centroids (b.dim * cell + ix)
      wr f (1 + ix) (xi - ci)) f
    wr f 0 1
  else if b.degree = 0 then wr f 0 1
  else .error .thrown

/-- The factor `f[ind]` of a basis function.  Models: `DGBasis.cpp:253`, `DGBasis.cpp:286`. -/
def factor (x c : Rat) (ind : Nat) : Rat := if ind = 0 then 1 / 2 - x + c else 1 / 2 + x - c

/-- `fder[ind]`.  Models: `DGBasis.cpp:287`. -/
def factorDer (ind : Nat) : Rat := if ind = 0 then -1 else 1

/-- `(ix/divi) % 2` with `divi = 1 << (dim - dd - 1)`.  Models: `DGBasis.cpp:254-256`, `DGBasis.cpp:288-290`. -/
def side (dim dd ix : Nat) : Nat := ix / 2 ^ (dim - dd - 1) % 2

/-- `eval` of `DGBasisMultilin`.  Models: `DGBasis.cpp:239-263`. -/
def evalMultilin (b : Basis) (cell : Nat) (x f : List Rat) : M (List Rat) := do
  let nb ← numBasis b
  if b.degree = 0 then wr f 0 1
  else if b.degree = 1 then do
    let f ← fill f nb 1
    loop b.dim (fun dd f => do
      let xd ← rd x dd
      let cd ← rd b.centroids (b.dim * cell + dd)
      loop nb (fun ix f => do
        let v ← rd f ix
        wr f ix (v * factor xd cd (side b.dim dd ix))) f) f
  else .error .thrown

/-- `eval`. -/
def eval (b : Basis) (cell : Nat) (x f : List Rat) : M (List Rat) :=
  match b.kind with
  | .totalDegree => evalTotal b cell x f
  | .multilin => evalMultilin b cell x f

/-- `evalGrad` of `DGBasisBoundedTotalDegree`.  Models: `DGBasis.cpp:134-146`. -/
def evalGradTotal (b : Basis) (g : List Rat) : M (List Rat) := do
  let nb ← numBasis b
  let g ← fill g (nb * b.dim) 0
  if b.degree = 1 then loop b.dim (fun ix g => wr g (b.dim * (ix + 1) + ix) 1) g
  else .ok g

/-- `evalGrad` of `DGBasisMultilin`.  Models: `DGBasis.cpp:271-300`. -/
def evalGradMultilin (b : Basis) (cell : Nat) (x g : List Rat) : M (List Rat) := do
  let nb ← numBasis b
  if b.degree = 0 then fill g (nb * b.dim) 0
  else if b.degree = 1 then do
    let g ← fill g (nb * b.dim) 1
    loop b.dim (fun dd g => do
      let xd ← rd x dd
      let cd ← rd b.centroids (b.dim * cell + dd)
      loop nb (fun ix g => loop b.dim (fun dder g => do
        let v ← rd g (ix * b.dim + dder)
        wr g (ix * b.dim + dder) (v * (if dder = dd then factorDer (side b.dim dd ix) else factor xd cd (side b.dim dd ix)))) g) g) g
  else .error .thrown

/-- `evalGrad`. -/
def evalGrad (b : Basis) (cell : Nat) (x g : List Rat) : M (List Rat) :=
  match b.kind with
  | .totalDegree => evalGradTotal b g
  | .multilin => evalGradMultilin b cell x g

/-- `std::accumulate(c, c + n, 0.0)`. -/
def accumulate (c : List Rat) (n : Nat) : M Rat := loop n (fun i s => do
  let v ← rd c i
  .ok (s + v)) 0

/-- `functionAverage`.  Models: `DGBasis.cpp:178-181`, `DGBasis.cpp:336-340`. -/
def functionAverage (b : Basis) (c : List Rat) : M Rat :=
  match b.kind with
  | .totalDegree => rd c 0
  | .multilin => do
    let nb ← numBasis b
    let s ← accumulate c nb
    fdiv s nb

/-- `addConstant`.  Models: `DGBasis.cpp:154-158`, `DGBasis.cpp:307-315`. -/
def addConstant (b : Basis) (increment : Rat) (c : List Rat) : M (List Rat) :=
  match b.kind with
  | .totalDegree => do
    let v ← rd c 0
    wr c 0 (v + increment)
  | .multilin => do
    let nb ← numBasis b
    let term ← fdiv increment nb
    loop nb (fun ix c => do
      let v ← rd c ix
      wr c ix (v + term)) c

/-- `multiplyGradient`.  Models: `DGBasis.cpp:167-174`, `DGBasis.cpp:324-332`. -/
def multiplyGradient (b : Basis) (fac : Rat) (c : List Rat) : M (List Rat) :=
  match b.kind with
  | .totalDegree => do
    let nb ← numBasis b
    forRange 1 nb (fun ix c => do
      let v ← rd c ix
      wr c ix (v * fac)) c
  | .multilin => do
    let nb ← numBasis b
    let aver ← functionAverage b c
    loop nb (fun ix c => do
      let v ← rd c ix
      wr c ix (fac * (v - aver) + aver)) c

/-- `bvals_.resize(n)`. -/
def resize (l : List Rat) (n : Nat) : List Rat := l.take n ++ List.replicate (n - l.length) 0

/-- `std::inner_product(u.begin(), u.end(), c, 0.0)`. -/
def innerProduct (u c : List Rat) : M Rat := loop u.length (fun i s => do
  let a ← rd u i
  let v ← rd c i
  .ok (s + a * v)) 0

/-- `evalFunc`; `bvals` is the member `bvals_` as earlier calls left it, and is returned with the value.  Models: `DGBasis.cpp:43-50`. -/
def evalFunc (b : Basis) (bvals : List Rat) (cell : Nat) (c x : List Rat) : M (Rat × List Rat) := do
  let nb ← numBasis b
  let bvals ← eval b cell x (resize bvals nb)
  let v ← innerProduct bvals c
  .ok (v, bvals)

end Opm.DGBasis
