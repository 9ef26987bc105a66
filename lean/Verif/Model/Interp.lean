import Verif.Core.Mem
/-!
# Linear interpolation in tables

Models `opm/core/utility/linearInterpolation.hpp`, `NonuniformTableLinear.hpp` (with `T = double`) and
`UniformTableLinear.hpp` (with `T = double`).  Numbers are exact rationals.  Debug build: `ASSERT` is active.
-/

namespace Opm.Interp
open Opm

/-! ### linearInterpolation.hpp -/

/-- The bisection loop of `tableIndex`.  Fuel bounds the halvings.  Models: `linearInterpolation.hpp:43-50`. -/
def tableIndexGo (table : List Rat) (x : Rat) (ascend : Bool) : Nat → Nat → Nat → M Nat
  | 0, _, _ => .error .timeout
  | fuel + 1, jl, ju =>
    if ju - jl > 1 then do
      let jm := (ju + jl) / 2
      let t ← rd table jm
      if decide (x ≥ t) == ascend then tableIndexGo table x ascend fuel jm ju
      else tableIndexGo table x ascend fuel jl jm
    else .ok jl

/-- `tableIndex(table, x)`.  Models: `linearInterpolation.hpp:31-52`. -/
def tableIndex (table : List Rat) (x : Rat) : M Nat :=
  let n : Int := (table.length : Int) - 1
  if n < 2 then .ok 0
  else do
    let last ← rd table n.toNat
    let first ← rd table 0
    tableIndexGo table x (decide (last > first)) (n.toNat + 1) 0 n.toNat

/-- `linearInterpolationDerivative(xv, yv, x)`.  Models: `linearInterpolation.hpp:55-62`. -/
def linearInterpolationDerivative (xv yv : List Rat) (x : Rat) : M Rat := do
  let ix1 ← tableIndex xv x
  let ix2 := ix1 + 1
  let y2 ← rd yv ix2
  let y1 ← rd yv ix1
  let x2 ← rd xv ix2
  let x1 ← rd xv ix1
  fdiv (y2 - y1) (x2 - x1)

/-- `linearInterpolation(xv, yv, x)`.  Models: `linearInterpolation.hpp:64-71`; the overload with the
extra output `ix1` (`:73-81`) computes the same value and returns `tableIndex xv x` in `ix1`. -/
def linearInterpolation (xv yv : List Rat) (x : Rat) : M Rat := do
  let ix1 ← tableIndex xv x
  let ix2 := ix1 + 1
  let y2 ← rd yv ix2
  let y1 ← rd yv ix1
  let x2 ← rd xv ix2
  let x1 ← rd xv ix1
  let q ← fdiv (y2 - y1) (x2 - x1)
  .ok (q * (x - x1) + y1)

/-! ### NonuniformTableLinear.hpp -/

/-- Data members.  Models: `NonuniformTableLinear.hpp:83-86`. -/
structure NTable where
  xs : List Rat
  ys : List Rat
  xsRev : List Rat
  ysRev : List Rat
  deriving DecidableEq, Repr

/-- `isNondecreasing(beg, end)`.  Models: `NonuniformTableLinear.hpp:97-110`. -/
def isNondecreasing : List Rat → Bool
  | [] => true
  | [_] => true
  | a :: b :: l => if b < a then false else isNondecreasing (b :: l)

/-- Constructor from values.  Models: `NonuniformTableLinear.hpp:123-131`. -/
def NTable.new (xs ys : List Rat) : M NTable := do
  check (isNondecreasing xs)
  .ok { xs := xs, ys := ys, xsRev := [], ysRev := [] }

/-- `vec.back()`: undefined on an empty vector. -/
def back (l : List Rat) : M Rat := rd l (l.length - 1)

/-- `domain()`.  Models: `NonuniformTableLinear.hpp:133-139`. -/
def NTable.domain (t : NTable) : M (Rat × Rat) := do
  let a ← rd t.xs 0
  let b ← back t.xs
  .ok (a, b)

/-- `rescaleDomain(new_domain)`.  Models: `NonuniformTableLinear.hpp:141-154`. -/
def NTable.rescaleDomain (dom : Rat × Rat) (t : NTable) : M NTable := do
  let a ← rd t.xs 0
  let b ← back t.xs
  let c := dom.1
  let d := dom.2
  let xs ← loop t.xs.length (fun i xs => do
    let x ← rd xs i
    let q ← fdiv ((x - a) * (d - c)) (b - a)
    wr xs i (q + c)) t.xs
  .ok { t with xs := xs }

/-- `operator()(x)`.  Models: `NonuniformTableLinear.hpp:156-162`. -/
def NTable.eval (t : NTable) (x : Rat) : M Rat := linearInterpolation t.xs t.ys x

/-- `derivative(x)`.  Models: `NonuniformTableLinear.hpp:164-170`. -/
def NTable.derivative (t : NTable) (x : Rat) : M Rat := linearInterpolationDerivative t.xs t.ys x

/-- Filling of the cache of reversed values.  Models: `NonuniformTableLinear.hpp:180-186`. -/
def NTable.fillCache (t : NTable) : M NTable :=
  if t.ysRev.isEmpty then do
    let ysRev := t.ys.reverse
    check (isNondecreasing ysRev)
    .ok { t with ysRev := ysRev, xsRev := t.xs.reverse }
  else .ok t

/-- `inverse(y)`; the object is returned because its mutable cache may change.
Models: `NonuniformTableLinear.hpp:172-189`. -/
def NTable.inverse (t : NTable) (y : Rat) : M (Rat × NTable) := do
  let f ← rd t.ys 0
  let b ← back t.ys
  if f < b then do
    let x ← linearInterpolation t.ys t.xs y
    .ok (x, t)
  else do
    let t ← t.fillCache
    let x ← linearInterpolation t.ysRev t.xsRev y
    .ok (x, t)

/-- `operator==`.  Models: `NonuniformTableLinear.hpp:191-198`. -/
def NTable.beq (s t : NTable) : Bool := s.xs == t.xs && s.ys == t.ys

/-! ### UniformTableLinear.hpp -/

/-- `RangePolicy`.  Models: `UniformTableLinear.hpp:85`. -/
inductive RangePolicy where
  | throw
  | closestValue
  | extrapolate
  deriving DecidableEq, Repr

/-- Data members.  Models: `UniformTableLinear.hpp:96-101`. -/
structure UTable where
  xmin : Rat
  xmax : Rat
  xdelta : Rat
  ys : List Rat
  left : RangePolicy
  right : RangePolicy
  deriving DecidableEq, Repr

/-- Constructors from values.  Models: `UniformTableLinear.hpp:117-129` and `:131-145`. -/
def UTable.new (xmin xmax : Rat) (ys : List Rat) : M UTable := do
  check (decide (xmax > xmin))
  check (decide (ys.length > 1))
  let d ← fdiv (xmax - xmin) ((ys.length - 1 : Nat) : Rat)
  .ok { xmin := xmin, xmax := xmax, xdelta := d, ys := ys, left := .closestValue, right := .closestValue }

/-- `rescaleDomain(new_domain)`.  Models: `UniformTableLinear.hpp:155-163`. -/
def UTable.rescaleDomain (dom : Rat × Rat) (t : UTable) : M UTable := do
  let d ← fdiv (dom.2 - dom.1) ((t.ys.length - 1 : Nat) : Rat)
  .ok { t with xmin := dom.1, xmax := dom.2, xdelta := d }

/-- The position of `x`, clamped to the domain, in units of the spacing, and its integer part.
Models: `UniformTableLinear.hpp:170-177` (`operator()`) and `:197-202` (`derivative`). -/
def UTable.locate (t : UTable) (xparam : Rat) : M (Rat × Int) := do
  let x := min xparam t.xmax
  let x := max x t.xmin
  let pos ← fdiv (x - t.xmin) t.xdelta
  .ok (pos, pos.floor)

/-- `operator()(x)`.  Models: `UniformTableLinear.hpp:165-184`. -/
def UTable.eval (t : UTable) (xparam : Rat) : M Rat := do
  let (pos, left) ← t.locate xparam
  if left = (t.ys.length : Int) - 1 then back t.ys
  else do
    let w := pos - (left : Rat)
    let y0 ← rdI t.ys left
    let y1 ← rdI t.ys (left + 1)
    .ok ((1 - w) * y0 + w * y1)

/-- `derivative(x)`.  Models: `UniformTableLinear.hpp:186-210`. -/
def UTable.derivative (t : UTable) (xparam : Rat) : M Rat :=
  if xparam > t.xmax ∨ xparam < t.xmin then .ok 0
  else do
    let (_, left) ← t.locate xparam
    let left := if left = (t.ys.length : Int) - 1 then left - 1 else left
    let y1 ← rdI t.ys (left + 1)
    let y0 ← rdI t.ys left
    fdiv (y1 - y0) t.xdelta

/-- `operator==`.  Models: `UniformTableLinear.hpp:213-223`. -/
def UTable.beq (s t : UTable) : Bool :=
  s.xmin == t.xmin && s.xdelta == t.xdelta && s.ys == t.ys && s.left == t.left && s.right == t.right

/-- `setLeftPolicy(rp)`.  Models: `UniformTableLinear.hpp:225-234`. -/
def UTable.setLeftPolicy (rp : RangePolicy) (t : UTable) : M UTable :=
  if rp ≠ .closestValue then .error .thrown else .ok { t with left := rp }

/-- `setRightPolicy(rp)`.  Models: `UniformTableLinear.hpp:236-245`. -/
def UTable.setRightPolicy (rp : RangePolicy) (t : UTable) : M UTable :=
  if rp ≠ .closestValue then .error .thrown else .ok { t with right := rp }

end Opm.Interp
