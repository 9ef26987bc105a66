import Verif.Model.Interp
import Verif.Model.UniformMonotone
/-!
# Properties of single fluids

Models `opm/core/props/pvt/SinglePvtInterface.{hpp,cpp}`, `SinglePvtDead.cpp`, `SinglePvtDeadSpline.cpp`, `SinglePvtConstCompr.hpp`,
`SinglePvtLiveOil.cpp` and `SinglePvtLiveGas.cpp`.  Numbers are exact rationals; a division by zero is `nonFinite`, except where the code compares its
result with another number.  Debug build: `ASSERT` is active.  Output arrays do not overlap.
-/

namespace Opm.Pvt
open Opm Opm.Interp

/-- Position of the liquid phase in `phase_pos`.  Models: `BlackoilPhases.hpp:33`. -/
def Liquid : Nat := 1
/-- Position of the vapour phase in `phase_pos`.  Models: `BlackoilPhases.hpp:33`. -/
def Vapour : Nat := 2

/-- `num_phases_` and `phase_pos_`.  Models: `SinglePvtInterface.hpp:81-83`. -/
structure Config where
  numPhases : Nat
  phasePos : List Nat
  deriving DecidableEq, Repr

/-- The configuration of a new object.  Models: `SinglePvtInterface.cpp:27-33`. -/
def Config.default : Config := ⟨3, [0, 1, 2]⟩

/-- A loop over points which writes one number for each.  Models: the loops of all `mu`, `B`, `R` of the `SinglePvt` classes. -/
def each (n : Nat) (f : Nat → M Rat) (out : List Rat) : M (List Rat) :=
  loop n (fun i out => do
    let v ← f i
    wr out i v) out

/-- A loop over points which writes two numbers for each.  Models: the loops of `dBdp`, `dRdp` of the `SinglePvt` classes. -/
def each2 (n : Nat) (f : Nat → M (Rat × Rat)) (out : List Rat × List Rat) : M (List Rat × List Rat) :=
  loop n (fun i out => do
    let v ← f i
    let a ← wr out.1 i v.1
    let b ← wr out.2 i v.2
    .ok (a, b)) out

/-! ### Dead fluids -/

/-- A table of a dead fluid: `NonuniformTableLinear` (`SinglePvtDead.hpp`) or `UniformTableLinear` (`SinglePvtDeadSpline.hpp`). -/
inductive Tab where
  | nonuniform (t : NTable)
  | uniform (t : UTable)
  deriving DecidableEq, Repr

/-- `operator()` of the table. -/
def Tab.eval : Tab → Rat → M Rat
  | .nonuniform t, x => t.eval x
  | .uniform t, x => t.eval x

/-- `derivative` of the table. -/
def Tab.derivative : Tab → Rat → M Rat
  | .nonuniform t, x => t.derivative x
  | .uniform t, x => t.derivative x

/-- Data members of `SinglePvtDead` and `SinglePvtDeadSpline`. -/
structure Dead where
  oneOverB : Tab
  visc : Tab
  deriving DecidableEq, Repr

/-- Pressures, inverses of `B` and viscosities are copied.  Models: `SinglePvtDead.cpp:45-54`, `SinglePvtDeadSpline.cpp:47-56`. -/
def copyColumns (region : List (List Rat)) : M (List Rat × List Rat × List Rat) := do
  let c0 ← rd region 0
  let sz := c0.length
  let press ← loop sz (fun i l => do let v ← rd c0 i; wr l i v) (List.replicate sz 0)
  let binv ← loop sz (fun i l => do let c ← rd region 1; let v ← rd c i; let q ← fdiv 1 v; wr l i q) (List.replicate sz 0)
  let visc ← loop sz (fun i l => do let c ← rd region 2; let v ← rd c i; wr l i v) (List.replicate sz 0)
  .ok (press, binv, visc)

/-- Constructor of `SinglePvtDead`.  Models: `SinglePvtDead.cpp:37-63`. -/
def Dead.new (pvd : List (List (List Rat))) : M Dead :=
  if pvd.length ≠ 1 then .error .thrown
  else do
    let region ← rd pvd 0
    let (press, binv, visc) ← copyColumns region
    let t ← NTable.new press binv
    let u ← NTable.new press visc
    .ok ⟨.nonuniform t, .nonuniform u⟩

/-- Constructor of `SinglePvtDeadSpline`; `sqrt`, `c1 c2 fl` as in `UniformMonotone.build`.  Models: `SinglePvtDeadSpline.cpp:38-65`. -/
def Dead.newSpline (sqrt : Rat → Rat) (c1 c2 : Bool) (fl : MonotCubic.Flags) (pvd : List (List (List Rat))) (samples : Int) : M Dead :=
  if pvd.length ≠ 1 then .error .thrown
  else do
    let region ← rd pvd 0
    let (press, binv, visc) ← copyColumns region
    let t ← UniformMonotone.build sqrt c1 c2 fl press binv samples
    let u ← UniformMonotone.build sqrt c1 c2 fl press visc samples
    .ok ⟨.uniform t, .uniform u⟩

/-- Formation volume factor of one point.  Models: `SinglePvtDead.cpp:90`. -/
def Dead.bAt (d : Dead) (p : Rat) : M Rat := do
  let v ← d.oneOverB.eval p
  fdiv 1 v

/-- `B`.  Models: `SinglePvtDead.cpp:83-92`, `SinglePvtDeadSpline.cpp:84-93`. -/
def Dead.B (d : Dead) (n : Nat) (p : List Rat) (out : List Rat) : M (List Rat) :=
  each n (fun i => do let x ← rd p i; d.bAt x) out

/-- `mu`.  Models: `SinglePvtDead.cpp:72-81`, `SinglePvtDeadSpline.cpp:73-82`. -/
def Dead.mu (d : Dead) (n : Nat) (p : List Rat) (out : List Rat) : M (List Rat) :=
  each n (fun i => do let x ← rd p i; d.visc.eval x) out

/-- `dBdp`.  Models: `SinglePvtDead.cpp:94-106`, `SinglePvtDeadSpline.cpp:95-107`. -/
def Dead.dBdp (d : Dead) (n : Nat) (p : List Rat) (out : List Rat × List Rat) : M (List Rat × List Rat) := do
  let b ← d.B n p out.1
  let db ← each n (fun i => do
    let bg ← rd b i
    let x ← rd p i
    let s ← d.oneOverB.derivative x
    .ok (-bg * bg * s)) out.2
  .ok (b, db)

/-! ### Constant compressibility -/

/-- Data members.  Models: `SinglePvtConstCompr.hpp:142-146`. -/
structure ConstCompr where
  refPress : Rat
  refB : Rat
  comp : Rat
  visc : Rat
  viscComp : Rat
  deriving DecidableEq, Repr

/-- Constructor from a table.  Models: `SinglePvtConstCompr.hpp:43-54`. -/
def ConstCompr.new (pvtw : List (List Rat)) : M ConstCompr :=
  if pvtw.length ≠ 1 then .error .thrown
  else do
    let r ← rd pvtw 0
    let a ← rd r 0
    let b ← rd r 1
    let c ← rd r 2
    let d ← rd r 3
    let e ← rd r 4
    .ok ⟨a, b, c, d, e⟩

/-- Constructor from a viscosity.  Models: `SinglePvtConstCompr.hpp:56-63`. -/
def ConstCompr.ofVisc (visc : Rat) : ConstCompr := ⟨0, 1, 0, visc, 0⟩

/-- The polynomial which stands for the exponential function.  Models: `SinglePvtConstCompr.hpp:79`, `:96`, `:112`. -/
def poly (x : Rat) : Rat := 1 + x + 1 / 2 * x * x

/-- `std::fill(out, out + n, v)`. -/
def fill (n : Nat) (v : Rat) (out : List Rat) : M (List Rat) := each n (fun _ => .ok v) out

/-- `mu`.  Models: `SinglePvtConstCompr.hpp:69-84`. -/
def ConstCompr.mu (c : ConstCompr) (n : Nat) (p : List Rat) (out : List Rat) : M (List Rat) :=
  if c.viscComp ≠ 0 then
    each n (fun i => do
      let pi ← rd p i
      let x := -c.viscComp * (pi - c.refPress)
      fdiv c.visc (poly x)) out
  else fill n c.visc out

/-- `B`.  Models: `SinglePvtConstCompr.hpp:86-101`. -/
def ConstCompr.B (c : ConstCompr) (n : Nat) (p : List Rat) (out : List Rat) : M (List Rat) :=
  if c.comp ≠ 0 then
    each n (fun i => do
      let pi ← rd p i
      let x := c.comp * (pi - c.refPress)
      fdiv c.refB (poly x)) out
  else fill n c.refB out

/-- `dBdp`.  Models: `SinglePvtConstCompr.hpp:103-121`. -/
def ConstCompr.dBdp (c : ConstCompr) (n : Nat) (p : List Rat) (out : List Rat × List Rat) : M (List Rat × List Rat) :=
  if c.comp ≠ 0 then
    each2 n (fun i => do
      let pi ← rd p i
      let x := c.comp * (pi - c.refPress)
      let d := poly x
      let b ← fdiv c.refB d
      let q ← fdiv (-c.refB) (d * d)
      .ok (b, q * (1 + x) * c.comp)) out
  else do
    let b ← fill n c.refB out.1
    let db ← fill n 0 out.2
    .ok (b, db)

/-! ### Live fluids: common parts -/

/-- `a / b` where the result is compared with finite numbers: `none` is plus infinity.  Minus infinity and NaN make all later results infinite or NaN. -/
def ratio (a b : Rat) : M (Option Rat) :=
  if b ≠ 0 then .ok (some (a / b))
  else if 0 < a then .ok none
  else .error .nonFinite

/-- `r < maxR`. -/
def below (r : Rat) : Option Rat → Bool
  | none => true
  | some m => decide (r < m)

/-- Use of `maxR` as a number. -/
def finite : Option Rat → M Rat
  | none => .error .nonFinite
  | some m => .ok m

/-- Data members of `SinglePvtLiveOil` and `SinglePvtLiveGas`: the columns of the saturated table (pressure, `1/B` of oil or `B` of gas, viscosity, `Rs` or `Rv`), and, for each of its
rows, the columns of an undersaturated table. -/
structure Live where
  sat : List (List Rat)
  under : List (List (List Rat))
  deriving DecidableEq, Repr

/-- `surfvol[phase_pos_[phase]]`, where `vol` reads `surfvol`.  Models e.g. `SinglePvtLiveOil.cpp:302`. -/
def volume (cfg : Config) (vol : Nat → M Rat) (phase : Nat) : M Rat := do
  let k ← rd cfg.phasePos phase
  vol k

/-- The sizes of a record: `(size - 1) / 3` in unsigned arithmetic.  An empty record would give a huge size; reading its first numbers is undefined before.
Models: `SinglePvtLiveOil.cpp:62`, `SinglePvtLiveGas.cpp:71`. -/
def tsize (rec : List Rat) : Nat := (rec.length - 1) / 3

/-- Number `k` of each of the points of a record, `g` being applied to it.  Models: `SinglePvtLiveOil.cpp:63-70`, `SinglePvtLiveGas.cpp:72-79`. -/
def column (rec : List Rat) (k : Nat) (g : Rat → M Rat) : M (List Rat) :=
  loop (tsize rec) (fun j l => do
    let v ← rd rec (3 * j + k)
    let w ← g v
    wr l j w) (List.replicate (tsize rec) 0)

/-- A number of each record.  Models: `SinglePvtLiveOil.cpp:52-57`, `SinglePvtLiveGas.cpp:60-65`. -/
def firsts (recs : List (List Rat)) (k : Nat) (g : Rat → M Rat) : M (List Rat) :=
  loop recs.length (fun i l => do
    let r ← rd recs i
    let v ← rd r k
    let w ← g v
    wr l i w) (List.replicate recs.length 0)

/-- The undersaturated tables.  Models: `SinglePvtLiveOil.cpp:59-71`, `SinglePvtLiveGas.cpp:67-80`. -/
def unders (recs : List (List Rat)) (g : Rat → M Rat) : M (List (List (List Rat))) :=
  loop recs.length (fun i l => do
    let r ← rd recs i
    let a ← column r 1 .ok
    let b ← column r 2 g
    let c ← column r 3 .ok
    wr l i [a, b, c]) (List.replicate recs.length [])

/-- `linearInterpolation(t[0], t[item], x)` for a table of columns. -/
def interpCol (t : List (List Rat)) (k item : Nat) (x : Rat) : M Rat := do
  let a ← rd t k
  let b ← rd t item
  linearInterpolation a b x

/-- `linearInterpolationDerivative(t[0], t[item], x)`. -/
def derivCol (t : List (List Rat)) (k item : Nat) (x : Rat) : M Rat := do
  let a ← rd t k
  let b ← rd t item
  linearInterpolationDerivative a b x

/-- `t[k][i]`. -/
def at2 (t : List (List Rat)) (k i : Nat) : M Rat := do
  let c ← rd t k
  rd c i

/-- `t[i][0].size()`. -/
def rows (under : List (List (List Rat))) (i : Nat) : M Nat := do
  let t ← rd under i
  let c ← rd t 0
  .ok c.length

/-! ### Live oil -/

/-- The next record with undersaturated data.  Reading beyond the last record is undefined.  Models: `SinglePvtLiveOil.cpp:77-79`, `:93-95`. -/
def seek (under : List (List (List Rat))) : Nat → Nat → M Nat
  | 0, _ => .error .timeout
  | fuel + 1, i => do
    let n ← rows under i
    if n < 2 then seek under fuel (i + 1) else .ok i

/-- `std::upper_bound` of a sorted sequence: the number of leading elements not greater than `x`. -/
def upperBound (l : List Rat) (x : Rat) : Nat := (l.takeWhile (fun a => decide (a ≤ x))).length

/-- Position in the pressures of a neighbouring table: the first one which exceeds `pressure0 + 1`, but not the first and not beyond the last.  The predecessor is read next, which is undefined
for a table of one row.  Models: `SinglePvtLiveOil.cpp:105-111`, `:122-128`. -/
def position (ps : List Rat) (pressure0 : Rat) : M Nat :=
  let k := upperBound ps (pressure0 + 1)
  if k = ps.length then (if ps.length = 0 then .error .ub else .ok (k - 1))
  else if k = 0 then .ok 1
  else .ok k

/-- What is found in a neighbouring table: whether its last row is reached, the pressure, the slopes of `1/B` and viscosity.  Models: `SinglePvtLiveOil.cpp:112-119`, `:129-140`. -/
def neighbour (t : List (List Rat)) (pressure0 : Rat) : M (Bool × Rat × Rat × Rat) := do
  let ps ← rd t 0
  let k ← position ps pressure0
  let last := decide (k + 1 = ps.length)
  let p ← rd ps k
  let q ← rdI ps ((k : Int) - 1)
  let dp := p - q
  let b1 ← at2 t 1 k
  let b0 ← at2 t 1 (k - 1)
  let sb ← fdiv (b1 - b0) dp
  let v1 ← at2 t 2 k
  let v0 ← at2 t 2 (k - 1)
  let sv ← fdiv (v1 - v0) dp
  .ok (last, p, sb, sv)

/-- Local variables of the filling of one table: the two flags and the four slopes. -/
structure FillState where
  flagPrev : Bool
  flagNext : Bool
  prevB : Rat
  prevV : Rat
  nextB : Rat
  nextV : Rat
  table : List (List Rat)
  deriving DecidableEq, Repr

/-- The previous table, if its flag is set.  Returns the state and `pressure`.  Models: `SinglePvtLiveOil.cpp:103-120`. -/
def lookPrev (under : List (List (List Rat))) (iPrev : Int) (pressure0 : Rat) (s : FillState) : M (FillState × Rat) :=
  if s.flagPrev then do
    let t ← rdI under iPrev
    let (last, p, sb, sv) ← neighbour t pressure0
    .ok ({ s with flagPrev := !last, prevB := sb, prevV := sv }, p)
  else .ok (s, 10 ^ 47)

/-- The next table, if its flag is set.  Models: `SinglePvtLiveOil.cpp:121-141`. -/
def lookNext (under : List (List (List Rat))) (iNext : Nat) (pressure0 : Rat) (s : FillState × Rat) : M (FillState × Rat) :=
  if s.1.flagNext then do
    let t ← rd under iNext
    let (last, p, sb, sv) ← neighbour t pressure0
    .ok ({ s.1 with flagNext := !last, nextB := sb, nextV := sv }, if s.1.flagPrev then min s.2 p else p)
  else .ok s

/-- `push_back` on a column. -/
def pushCol (t : List (List Rat)) (k : Nat) (v : Rat) : M (List (List Rat)) := do
  let c ← rd t k
  wr t k (c ++ [v])

/-- Slopes of the new row: those of the next table, or a mean of both.  Models: `SinglePvtLiveOil.cpp:143-155`. -/
def slopes (rs : List Rat) (iPrev : Int) (iNext i : Nat) (s : FillState) : M (Rat × Rat) :=
  if 0 ≤ iPrev then do
    let a ← rd rs i
    let b ← rdI rs iPrev
    let c ← rd rs iNext
    let w ← fdiv (a - b) (c - b)
    .ok (s.prevB + w * (s.nextB - s.prevB), s.prevV + w * (s.nextV - s.prevV))
  else .ok (s.nextB, s.nextV)

/-- One pass of the loop: a new row.  Models: `SinglePvtLiveOil.cpp:101-157`. -/
def fillRow (under : List (List (List Rat))) (rs : List Rat) (iPrev : Int) (iNext i : Nat) (s : FillState) : M FillState := do
  let ps ← rd s.table 0
  let pressure0 ← back ps
  let a ← lookPrev under iPrev pressure0 s
  let (s, pressure) ← lookNext under iNext pressure0 a
  let dP := pressure - pressure0
  let (sb, sv) ← slopes rs iPrev iNext i s
  let t ← pushCol s.table 0 (pressure0 + dP)
  let b ← rd t 1
  let bl ← back b
  let t ← pushCol t 1 (bl + dP * sb)
  let v ← rd t 2
  let vl ← back v
  let t ← pushCol t 2 (vl + dP * sv)
  .ok { s with table := t }

/-- The loop which fills one table.  Models: `SinglePvtLiveOil.cpp:101-157`. -/
def fillLoop (under : List (List (List Rat))) (rs : List Rat) (iPrev : Int) (iNext i : Nat) : Nat → FillState → M FillState
  | 0, _ => .error .timeout
  | fuel + 1, s =>
    if s.flagPrev || s.flagNext then do
      let s ← fillRow under rs iPrev iNext i s
      fillLoop under rs iPrev iNext i fuel s
    else .ok s

/-- State of the loop over records: `iPrev`, `iNext` and the tables. -/
structure FillAll where
  iPrev : Int
  iNext : Nat
  under : List (List (List Rat))
  deriving DecidableEq, Repr

/-- The neighbours with data of record `i`: `flagPrev` and the state.  Models: `SinglePvtLiveOil.cpp:87-96`. -/
def advance (fuel : Nat) (i : Nat) (s : FillAll) : M (Bool × FillAll) :=
  if s.iNext < i then do
    let j ← seek s.under fuel (i + 1)
    .ok (true, { s with iPrev := s.iNext, iNext := j })
  else .ok (decide (0 ≤ s.iPrev), s)

/-- One record.  Models: `SinglePvtLiveOil.cpp:81-158`. -/
def fillStep (fuel : Nat) (rs : List Rat) (i : Nat) (s : FillAll) : M FillAll := do
  let n ← rows s.under i
  if 1 < n then .ok { s with iPrev := i }
  else do
    let (flagPrev, s) ← advance fuel i s
    let t ← rd s.under i
    let r ← fillLoop s.under rs s.iPrev s.iNext i fuel ⟨flagPrev, true, 0, 0, 0, 0, t⟩
    let under ← wr s.under i r.table
    .ok { s with under := under }

/-- Constructor; `fuel` bounds the `while` loops.  Models: `SinglePvtLiveOil.cpp:40-159`. -/
def liveOil (fuel : Nat) (pvto : List (List (List Rat))) : M Live :=
  if pvto.length ≠ 1 then .error .thrown
  else do
    let recs ← rd pvto 0
    let p ← firsts recs 1 .ok
    let b ← firsts recs 2 (fdiv 1)
    let m ← firsts recs 3 .ok
    let r ← firsts recs 0 .ok
    let u ← unders recs (fdiv 1)
    let iNext ← seek u fuel 1
    check (decide (iNext < recs.length))
    let s ← loop recs.length (fillStep fuel r) ⟨-1, iNext, u⟩
    .ok ⟨[p, b, m, r], s.under⟩

/-- `maxR` of `miscible_oil`: zero without oil.  Models: `SinglePvtLiveOil.cpp:302`. -/
def oilMaxR (cfg : Config) (vol : Nat → M Rat) : M (Option Rat) := do
  let l ← volume cfg vol Liquid
  if l = 0 then .ok (some 0)
  else do
    let v ← volume cfg vol Vapour
    ratio v l

/-- The mean of two undersaturated tables at the ratio `maxR`; `f` interpolates or differentiates.  Models: `SinglePvtLiveOil.cpp:308-322`, `:331-345`. -/
def Live.oilMean (t : Live) (f : List (List Rat) → M Rat) (maxR : Rat) : M Rat := do
  let rs ← rd t.sat 3
  let is ← tableIndex rs maxR
  let a ← rd rs is
  let b ← rd rs (is + 1)
  let w ← fdiv (maxR - a) (b - a)
  let n1 ← rows t.under is
  check (decide (2 ≤ n1))
  let n2 ← rows t.under (is + 1)
  check (decide (2 ≤ n2))
  let t1 ← rd t.under is
  let v1 ← f t1
  let t2 ← rd t.under (is + 1)
  let v2 ← f t2
  .ok (v1 + w * (v2 - v1))

/-- `miscible_oil`.  Models: `SinglePvtLiveOil.cpp:292-347`. -/
def Live.oil (t : Live) (cfg : Config) (press : Rat) (vol : Nat → M Rat) (item : Nat) (deriv : Bool) : M Rat := do
  let rval ← interpCol t.sat 0 3 press
  let maxR ← oilMaxR cfg vol
  if below rval maxR then (if deriv then derivCol t.sat 0 item press else interpCol t.sat 0 item press)
  else do
    let m ← finite maxR
    t.oilMean (fun c => if deriv then derivCol c 0 item press else interpCol c 0 item press) m

/-- `evalB`.  Models: `SinglePvtLiveOil.cpp:239-243`. -/
def Live.oilB (t : Live) (cfg : Config) (press : Rat) (vol : Nat → M Rat) : M Rat := do
  let v ← t.oil cfg press vol 1 false
  fdiv 1 v

/-- `evalBDeriv`.  Models: `SinglePvtLiveOil.cpp:246-251`. -/
def Live.oilBDeriv (t : Live) (cfg : Config) (press : Rat) (vol : Nat → M Rat) : M (Rat × Rat) := do
  let b ← t.oilB cfg press vol
  let d ← t.oil cfg press vol 1 true
  .ok (b, -b * b * d)

/-- `evalRDeriv`.  Models: `SinglePvtLiveOil.cpp:268-289`. -/
def Live.oilRDeriv (t : Live) (cfg : Config) (press : Rat) (vol : Nat → M Rat) : M (Rat × Rat) := do
  let v ← volume cfg vol Vapour
  if v = 0 then .ok (0, 0)
  else do
    let rval ← interpCol t.sat 0 3 press
    let l ← volume cfg vol Liquid
    let maxR ← ratio v l
    if below rval maxR then do
      let d ← derivCol t.sat 0 3 press
      .ok (rval, d)
    else do
      let m ← finite maxR
      .ok (m, 0)

/-- `evalR`.  Models: `SinglePvtLiveOil.cpp:253-266`. -/
def Live.oilR (t : Live) (cfg : Config) (press : Rat) (vol : Nat → M Rat) : M Rat := do
  let v ← volume cfg vol Vapour
  if v = 0 then .ok 0
  else do
    let rval ← interpCol t.sat 0 3 press
    let l ← volume cfg vol Liquid
    let maxR ← ratio v l
    if below rval maxR then .ok rval else finite maxR

/-! ### Live gas -/

/-- Constructor.  Models: `SinglePvtLiveGas.cpp:47-81`. -/
def liveGas (pvtg : List (List (List Rat))) : M Live :=
  if pvtg.length ≠ 1 then .error .thrown
  else do
    let recs ← rd pvtg 0
    let p ← firsts recs 0 .ok
    let b ← firsts recs 2 .ok
    let m ← firsts recs 3 .ok
    let r ← firsts recs 1 .ok
    let u ← unders recs .ok
    .ok ⟨[p, b, m, r], u⟩

/-- Both neighbouring tables at the ratio `maxR`.  Models: `SinglePvtLiveGas.cpp:252-259`, `:292-299`. -/
def Live.gasPair (t : Live) (is item : Nat) (maxR : Rat) : M (Rat × Rat) := do
  let t1 ← rd t.under is
  let v1 ← interpCol t1 0 item maxR
  let t2 ← rd t.under (is + 1)
  let v2 ← interpCol t2 0 item maxR
  .ok (v1, v2)

/-- Undersaturated derivative.  Models: `SinglePvtLiveGas.cpp:243-263`. -/
def Live.gasUnderDeriv (t : Live) (is item : Nat) (maxR : Rat) : M Rat := do
  let n ← rows t.under is
  let p1 ← at2 t.sat 0 (is + 1)
  let p0 ← at2 t.sat 0 is
  if n < 2 then do
    let a ← at2 t.sat item (is + 1)
    let b ← at2 t.sat item is
    fdiv (a - b) (p1 - p0)
  else do
    let (v1, v2) ← t.gasPair is item maxR
    fdiv (v2 - v1) (p1 - p0)

/-- Between the rows of the saturated table.  Models: `SinglePvtLiveGas.cpp:288-307`. -/
def Live.gasBetween (t : Live) (press : Rat) (is item : Nat) (maxR : Rat) : M Rat := do
  let p0 ← at2 t.sat 0 is
  let p1 ← at2 t.sat 0 (is + 1)
  let w ← fdiv (press - p0) (p1 - p0)
  let n ← rows t.under is
  if n < 2 then do
    let b ← at2 t.sat item is
    let a ← at2 t.sat item (is + 1)
    .ok (b + w * (a - b))
  else do
    let (v1, v2) ← t.gasPair is item maxR
    .ok (v1 + w * (v2 - v1))

/-- `is + 1 == ltp && press > saturated_gas_table_[0][ltp]`.  Models: `SinglePvtLiveGas.cpp:281-282`. -/
def beyondLast (ps : List Rat) (is : Nat) (press : Rat) : M Bool :=
  if is + 1 = ps.length - 1 then do
    let pl ← rd ps (ps.length - 1)
    .ok (decide (press > pl))
  else .ok false

/-- `is == 0 && press < saturated_gas_table_[0][0]`.  Models: `SinglePvtLiveGas.cpp:274`. -/
def beforeFirst (ps : List Rat) (is : Nat) (press : Rat) : M Bool :=
  if is = 0 then do
    let pf ← rd ps 0
    .ok (decide (press < pf))
  else .ok false

/-- Undersaturated value.  Models: `SinglePvtLiveGas.cpp:270-308`. -/
def Live.gasUnder (t : Live) (press : Rat) (is item : Nat) (maxR : Rat) : M Rat := do
  let ps ← rd t.sat 0
  let first ← beforeFirst ps is press
  if first then do
    let c ← rd t.under 0
    interpCol c 0 item maxR
  else do
    let last ← beyondLast ps is press
    if last then do
      let c ← rd t.under (ps.length - 1)
      interpCol c 0 item maxR
    else t.gasBetween press is item maxR

/-- `miscible_gas`.  Models: `SinglePvtLiveGas.cpp:225-311`. -/
def Live.gas (t : Live) (cfg : Config) (press : Rat) (vol : Nat → M Rat) (item : Nat) (deriv : Bool) : M Rat := do
  let rval ← interpCol t.sat 0 3 press
  let ps ← rd t.sat 0
  let section_ ← tableIndex ps press
  let l ← volume cfg vol Liquid
  let v ← volume cfg vol Vapour
  let maxR ← ratio l v
  if below rval maxR then (if deriv then derivCol t.sat 0 item press else interpCol t.sat 0 item press)
  else do
    let m ← finite maxR
    if deriv then t.gasUnderDeriv section_ item m else t.gasUnder press section_ item m

/-- `evalB`.  Models: `SinglePvtLiveGas.cpp:160-167`. -/
def Live.gasB (t : Live) (cfg : Config) (press : Rat) (vol : Nat → M Rat) : M Rat := do
  let v ← volume cfg vol Vapour
  if v = 0 then .ok 1 else t.gas cfg press vol 1 false

/-- `evalBDeriv`.  Models: `SinglePvtLiveGas.cpp:169-180`. -/
def Live.gasBDeriv (t : Live) (cfg : Config) (press : Rat) (vol : Nat → M Rat) : M (Rat × Rat) := do
  let v ← volume cfg vol Vapour
  if v = 0 then .ok (1, 0)
  else do
    let b ← t.gas cfg press vol 1 false
    let d ← t.gas cfg press vol 1 true
    .ok (b, d)

/-- `evalR`.  Models: `SinglePvtLiveGas.cpp:182-198`. -/
def Live.gasR (t : Live) (cfg : Config) (press : Rat) (vol : Nat → M Rat) : M Rat := do
  let l ← volume cfg vol Liquid
  if l = 0 then .ok 0
  else do
    let satR ← interpCol t.sat 0 3 press
    let v ← volume cfg vol Vapour
    let maxR ← ratio l v
    if below satR maxR then .ok satR else finite maxR

/-- `evalRDeriv`.  Models: `SinglePvtLiveGas.cpp:200-223`. -/
def Live.gasRDeriv (t : Live) (cfg : Config) (press : Rat) (vol : Nat → M Rat) : M (Rat × Rat) := do
  let l ← volume cfg vol Liquid
  if l = 0 then .ok (0, 0)
  else do
    let satR ← interpCol t.sat 0 3 press
    let v ← volume cfg vol Vapour
    let maxR ← ratio l v
    if below satR maxR then do
      let d ← derivCol t.sat 0 3 press
      .ok (satR, d)
    else do
      let m ← finite maxR
      .ok (m, 0)

/-! ### The common interface -/

/-- An object of one of the classes derived from `SinglePvtInterface`. -/
inductive Fluid where
  | dead (d : Dead)
  | const (c : ConstCompr)
  | oil (t : Live)
  | gas (t : Live)
  deriving DecidableEq, Repr

/-- The surface volumes of point `i`: `z + num_phases_*i`. -/
def volOf (cfg : Config) (z : List Rat) (i : Nat) : Nat → M Rat := fun k => rd z (cfg.numPhases * i + k)

/-- `mu(n, p, z, output_mu)`.  Models: `SinglePvtInterface.hpp:55-58` and the overrides. -/
def Fluid.mu (f : Fluid) (cfg : Config) (n : Nat) (p z : List Rat) (out : List Rat) : M (List Rat) :=
  match f with
  | .dead d => d.mu n p out
  | .const c => c.mu n p out
  | .oil t => each n (fun i => do let x ← rd p i; t.oil cfg x (volOf cfg z i) 2 false) out
  | .gas t => each n (fun i => do let x ← rd p i; t.gas cfg x (volOf cfg z i) 2 false) out

/-- `B(n, p, z, output_B)`.  Models: `SinglePvtInterface.hpp:61-64` and the overrides. -/
def Fluid.B (f : Fluid) (cfg : Config) (n : Nat) (p z : List Rat) (out : List Rat) : M (List Rat) :=
  match f with
  | .dead d => d.B n p out
  | .const c => c.B n p out
  | .oil t => each n (fun i => do let x ← rd p i; t.oilB cfg x (volOf cfg z i)) out
  | .gas t => each n (fun i => do let x ← rd p i; t.gasB cfg x (volOf cfg z i)) out

/-- `dBdp(n, p, z, output_B, output_dBdp)`.  Models: `SinglePvtInterface.hpp:67-71` and the overrides. -/
def Fluid.dBdp (f : Fluid) (cfg : Config) (n : Nat) (p z : List Rat) (out : List Rat × List Rat) : M (List Rat × List Rat) :=
  match f with
  | .dead d => d.dBdp n p out
  | .const c => c.dBdp n p out
  | .oil t => each2 n (fun i => do let x ← rd p i; t.oilBDeriv cfg x (volOf cfg z i)) out
  | .gas t => each2 n (fun i => do let x ← rd p i; t.gasBDeriv cfg x (volOf cfg z i)) out

/-- `R(n, p, z, output_R)`.  Models: `SinglePvtInterface.hpp:74-77` and the overrides. -/
def Fluid.R (f : Fluid) (cfg : Config) (n : Nat) (p z : List Rat) (out : List Rat) : M (List Rat) :=
  match f with
  | .dead _ => fill n 0 out
  | .const _ => fill n 0 out
  | .oil t => each n (fun i => do let x ← rd p i; t.oilR cfg x (volOf cfg z i)) out
  | .gas t => each n (fun i => do let x ← rd p i; t.gasR cfg x (volOf cfg z i)) out

/-- `dRdp(n, p, z, output_R, output_dRdp)`.  Models: `SinglePvtInterface.hpp:80-84` and the overrides. -/
def Fluid.dRdp (f : Fluid) (cfg : Config) (n : Nat) (p z : List Rat) (out : List Rat × List Rat) : M (List Rat × List Rat) :=
  match f with
  | .dead _ => do let a ← fill n 0 out.1; let b ← fill n 0 out.2; .ok (a, b)
  | .const _ => do let a ← fill n 0 out.1; let b ← fill n 0 out.2; .ok (a, b)
  | .oil t => each2 n (fun i => do let x ← rd p i; t.oilRDeriv cfg x (volOf cfg z i)) out
  | .gas t => each2 n (fun i => do let x ← rd p i; t.gasRDeriv cfg x (volOf cfg z i)) out

end Opm.Pvt
