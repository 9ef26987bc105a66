import Verif.Model.SatFunc
/-!
# Saturation functions of all cells, and end-point scaling

Models `opm/core/props/satfunc/SaturationPropsFromDeck_impl.hpp` and `SaturationPropsBasic.cpp`.
-/

namespace Opm.SatFunc
open Opm Opm.Interp Opm.Pvt Opm.Blackoil

/-- Names of scaled quantities. -/
inductive Key where
  | swl | swcr | swu | sowcr | krw | kro | krwr | krorw
  deriving DecidableEq, Repr

/-- ENPTVD or ENKRVD: `mask_` and `table_` (`SpecialEclipseFields.hpp:2305-2307`). -/
structure DepthTable where
  mask : List Bool
  table : List (List (List Rat))

/-- The parts of a deck which are looked at for saturation functions. -/
structure SatDeck where
  phases : Deck
  satnum : Option (List Int) := none
  swof : Option (List (List (List Rat))) := none
  sgof : Option (List (List (List Rat))) := none
  /-- ENDSCALE: the two switches. -/
  endscale : Option (String × String) := none
  scalecrs : Option String := none
  /-- Values of the keywords for scaled quantities. -/
  values : Key → Option (List Rat) := fun _ => none
  enptvd : Option DepthTable := none
  enkrvd : Option DepthTable := none

/-- The parts of a grid which are looked at: cells, their positions in the deck if not all are active, and the depths of their centroids (`cell_centroids[dim*cell+dim-1]`). -/
structure SatGrid where
  cells : Nat
  globalCell : Option (List Nat) := none
  depth : List Rat

/-- Scaled quantities of all cells; empty if a quantity is not scaled.  Models: `SaturationPropsFromDeck.hpp:110-119`. -/
structure Eps where
  swl : List Rat := []
  swcr : List Rat := []
  swu : List Rat := []
  sowcr : List Rat := []
  krw : List Rat := []
  kro : List Rat := []
  krwr : List Rat := []
  krorw : List Rat := []
  deriving DecidableEq, Repr

/-- Data members of `SaturationPropsFromDeck`. -/
structure SatProps where
  kind : Kind
  usage : PhaseUsage
  funcs : List Funcs
  cellToFunc : List Int
  eps : Eps := {}
  doEps : Bool := false
  do3pt : Bool := false
  deriving DecidableEq, Repr

/-- Position of a cell in the deck. -/
def SatGrid.deckPos (g : SatGrid) (cell : Nat) : M Nat := match g.globalCell with | none => .ok cell | some gc => rd gc cell

/-- `funcForCell`.  Models: `SaturationPropsFromDeck_impl.hpp:246-251`. -/
def SatProps.funcForCell (p : SatProps) (cell : Nat) : M Funcs :=
  if p.cellToFunc.isEmpty then rd p.funcs 0
  else do
    let k ← rd p.cellToFunc cell
    rdI p.funcs k

/-- `*std::max_element(begin, end)`, which does not exist for an empty range. -/
def maxElement : List Int → M Int
  | [] => .error .ub
  | a :: l => .ok (l.foldl (fun m x => if m < x then x else m) a)

/-- SATNUM: the number of functions expected and the function of each cell.  Models: `SaturationPropsFromDeck_impl.hpp:56-70`. -/
def regions (g : SatGrid) : Option (List Int) → M (Int × List Int)
  | none => .ok (1, [])
  | some satnum => do
    let m ← maxElement satnum
    let l ← loop g.cells (fun cell l => do
      let pos ← g.deckPos cell
      let v ← rd satnum pos
      .ok (l ++ [v - 1])) []
    .ok (m, l)

/-- Number of tables of a keyword, if the phase is used.  Models: `SaturationPropsFromDeck_impl.hpp:74-83`. -/
def tableCount (used : Bool) (t : Option (List (List (List Rat)))) (expected : Int) : M (Option Nat) :=
  if used then
    match t with
    | none => .error .thrown
    | some ts => if (ts.length : Int) < expected then .error .thrown else .ok (some ts.length)
  else .ok none

/-- Number of functions; none of both is -1 in the code, and resizing to -1 fails.  Models: `SaturationPropsFromDeck_impl.hpp:71-92`. -/
def countTables (a b : Option Nat) : M Nat :=
  match a, b with
  | some m, some n => if m ≠ n then .error .thrown else .ok m
  | some m, none => .ok m
  | none, some n => .ok n
  | none, none => .error .thrown

/-- The value of the table for a scaled quantity, used where it is not given.  Reading members which are never set is undefined. -/
def Funcs.default (f : Funcs) (aqua : Nat) : Key → M Rat
  | .swl => rd f.smin aqua
  | .swu => rd f.smax aqua
  | .swcr => do let e ← deref f.ends; .ok e.swcr
  | .sowcr => do let e ← deref f.ends; .ok e.sowcr
  | .krw => do let e ← deref f.ends; .ok e.krwmax
  | .kro => do let e ← deref f.ends; .ok e.kromax
  | .krwr => do let e ← deref f.ends; .ok e.krwr
  | .krorw => do let e ← deref f.ends; .ok e.krorw

/-- Whether a quantity is a saturation (`keyword[0] == 'S'`). -/
def Key.isSat : Key → Bool
  | .swl | .swcr | .swu | .sowcr => true
  | _ => false

/-- Column `itab` of the table of depths. -/
def Key.column : Key → Nat
  | .swl | .krw => 1
  | .swcr | .kro => 2
  | .swu | .krwr => 3
  | .sowcr | .krorw => 4

/-- Default values for all cells.  Models: `SaturationPropsFromDeck_impl.hpp:271-275` and the other keywords. -/
def SatProps.defaults (p : SatProps) (g : SatGrid) (k : Key) : M (List Rat) := do
  let aqua ← rd p.usage.pos Aqua
  loop g.cells (fun i l => do
    let f ← p.funcForCell i
    let v ← f.default aqua k
    .ok (l ++ [v])) []

/-- The value of one cell from a table of depths, if it has one there.  Models: `SaturationPropsFromDeck_impl.hpp:362-369`. -/
def atDepth (t : DepthTable) (k : Key) (jtab : Int) (zc old : Rat) : M Rat := do
  let c ← rd t.table k.column
  let val ← rdI c jtab
  let v0 ← rd val 0
  if v0 ≠ -1 then do
    let d ← rd t.table 0
    let depth ← rdI d jtab
    let lo ← rd depth 0
    let hi ← back depth
    if lo ≤ zc ∧ zc ≤ hi then linearInterpolation depth val zc else .ok old
  else .ok old

/-- The table used by a cell. -/
def SatProps.tableOf (p : SatProps) (cell : Nat) : M Int := if p.cellToFunc.isEmpty then .ok 0 else rd p.cellToFunc cell

/-- `initEPS`.  Models: `SaturationPropsFromDeck_impl.hpp:254-373`. -/
def SatProps.initEPS (p : SatProps) (d : SatDeck) (g : SatGrid) (k : Key) : M (List Rat) :=
  match d.values k, (if k.isSat then d.enptvd else d.enkrvd) with
  | some vals, _ => do
    let l ← p.defaults g k
    loop l.length (fun c l => do
      let pos ← g.deckPos c
      let v ← rd vals pos
      wr l c v) l
  | none, none => .ok []
  | none, some t => do
    let m ← rd t.mask (k.column - 1)
    if m then do
      let l ← p.defaults g k
      loop l.length (fun c l => do
        let j ← p.tableOf c
        let zc ← rd g.depth c
        let old ← rd l c
        let v ← atDepth t k j zc old
        wr l c v) l
    else .ok []

/-- All scaled quantities.  Models: `SaturationPropsFromDeck_impl.hpp:118-125`. -/
def SatProps.allEPS (p : SatProps) (d : SatDeck) (g : SatGrid) : M Eps := do
  let swcr ← p.initEPS d g .swcr
  let swl ← p.initEPS d g .swl
  let swu ← p.initEPS d g .swu
  let sowcr ← p.initEPS d g .sowcr
  let krw ← p.initEPS d g .krw
  let krwr ← p.initEPS d g .krwr
  let kro ← p.initEPS d g .kro
  let krorw ← p.initEPS d g .krorw
  .ok ⟨swl, swcr, swu, sowcr, krw, kro, krwr, krorw⟩

/-- Scaling, if ENDSCALE is there.  Models: `SaturationPropsFromDeck_impl.hpp:100-126`. -/
def SatProps.scaling (p : SatProps) (d : SatDeck) (g : SatGrid) : M SatProps :=
  match d.endscale with
  | none => .ok p
  | some (dir, rev) =>
    if !d.phases.water || !d.phases.oil || d.phases.gas then .error .thrown
    else if dir ≠ "NODIR" then .error .thrown
    else if rev ≠ "REVERS" then .error .thrown
    else do
      let e ← p.allEPS d g
      .ok { p with eps := e, doEps := true, do3pt := d.scalecrs == some "YES" }

/-- The functions of all tables.  Models: `SaturationPropsFromDeck_impl.hpp:95-98`. -/
def allFuncs (k : Kind) (u : Option (Sampling × Int)) (d : SatDeck) (pu : PhaseUsage) (n : Nat) : M (List Funcs) :=
  loop n (fun t l => do
    let f ← Funcs.init k u d.swof d.sgof t pu
    .ok (l ++ [f])) []

/-- `init`.  Models: `SaturationPropsFromDeck_impl.hpp:44-127`. -/
def SatProps.init (k : Kind) (u : Option (Sampling × Int)) (d : SatDeck) (g : SatGrid) : M SatProps := do
  let pu ← phaseUsage d.phases
  let (expected, c2f) ← regions g d.satnum
  let a ← tableCount d.phases.water d.swof expected
  let b ← tableCount d.phases.gas d.sgof expected
  let n ← countTables a b
  let fs ← allFuncs k u d pu n
  SatProps.scaling { kind := k, usage := pu, funcs := fs, cellToFunc := c2f } d g

/-! ### End-point scaling -/

/-- The value of a cell, or the one of the table if the quantity is not scaled: `eps.empty() ? dflt : eps[cell]`. -/
def pick (l : List Rat) (cell : Nat) (dflt : Rat) : M Rat := if l.isEmpty then .ok dflt else rd l cell

/-- Two-point scaling of a saturation.  Models: `SaturationPropsFromDeck_impl.hpp:422-430`, `:436-444`. -/
def scaleTwo (s tcr tmax cr mx : Rat) : M Rat :=
  if s ≤ cr then .ok tcr
  else if mx ≤ s then .ok tmax
  else do
    let q ← fdiv ((s - cr) * (tmax - tcr)) (mx - cr)
    .ok (tcr + q)

/-- Three-point scaling of a saturation.  Models: `SaturationPropsFromDeck_impl.hpp:388-399`, `:404-414`. -/
def scaleThree (s tcr tr tmax cr r mx : Rat) : M Rat :=
  if s ≤ r then
    if s ≤ cr then .ok tcr
    else do
      let q ← fdiv ((s - cr) * (tr - tcr)) (r - cr)
      .ok (tcr + q)
  else if mx ≤ s then .ok tmax
  else do
    let q ← fdiv ((s - r) * (tmax - tr)) (mx - r)
    .ok (tr + q)

/-- Quantities for the scaling of one phase: those of the table (`t…`) and of the cell.  `tr`, `r` are where the other phase becomes immobile. -/
structure Scale where
  tcr : Rat
  tr : Rat
  tmax : Rat
  cr : Rat
  r : Rat
  mx : Rat
  /-- Relative permeabilities of the table at `tmax` and `tr`. -/
  vmax : Rat
  vr : Rat
  deriving DecidableEq, Repr

/-- Water.  All numbers are read here, while the code reads what it needs. -/
def SatProps.waterScale (p : SatProps) (f : Funcs) (cell : Nat) : M Scale := do
  let w ← rd p.usage.pos Aqua
  let e ← deref f.ends
  let tmax ← rd f.smax w
  let cr ← pick p.eps.swcr cell e.swcr
  let o ← pick p.eps.sowcr cell e.sowcr
  let mx ← pick p.eps.swu cell tmax
  .ok ⟨e.swcr, 1 - e.sowcr, tmax, cr, 1 - o, mx, e.krwmax, e.krwr⟩

/-- Oil. -/
def SatProps.oilScale (p : SatProps) (f : Funcs) (cell : Nat) : M Scale := do
  let o ← rd p.usage.pos Liquid
  let e ← deref f.ends
  let tmax ← rd f.smax o
  let cr ← pick p.eps.sowcr cell e.sowcr
  let w ← pick p.eps.swcr cell e.swcr
  let swl ← pick p.eps.swl cell (1 - tmax)
  .ok ⟨e.sowcr, 1 - e.swcr, tmax, cr, 1 - w, 1 - swl, e.kromax, e.krorw⟩

/-- The saturation to look up.  Models: `SaturationPropsFromDeck_impl.hpp:384-446`. -/
def Scale.sat (c : Scale) (scaled three : Bool) (s : Rat) : M Rat :=
  if scaled then (if three then scaleThree s c.tcr c.tr c.tmax c.cr c.r c.mx else scaleTwo s c.tcr c.tmax c.cr c.mx) else .ok s

/-- The point `sr` of value scaling.  Models: `SaturationPropsFromDeck_impl.hpp:466-474`, `:507-515`. -/
def Scale.mid (c : Scale) (three : Bool) : M Rat :=
  if three then .ok c.r
  else do
    let q ← fdiv ((c.tr - c.tcr) * (c.mx - c.cr)) (c.tmax - c.tcr)
    .ok (c.cr + q)

/-- Multiplication by a ratio: `kr *= a/b`. -/
def times (kr a b : Rat) : M Rat := do
  let q ← fdiv a b
  .ok (kr * q)

/-- Three-point scaling of values; `other` says whether the (unrelated, for water) quantity KRO is scaled.  Models: `SaturationPropsFromDeck_impl.hpp:475-498`, `:516-539`. -/
def Scale.values (c : Scale) (three other : Bool) (vmaxs : List Rat) (cell : Nat) (vr s sr kr : Rat) : M Rat :=
  if s ≤ c.cr then .ok 0
  else if c.mx - 1 / 1000000 < sr then
    if three then times kr vr c.vr
    else if other then do
      let m ← rd vmaxs cell
      times kr m c.vmax
    else .ok kr
  else if s ≤ sr then times kr vr c.vr
  else do
    let m ← pick vmaxs cell c.vmax
    if s ≤ c.mx then
      if 1 / 1000000 < |c.vmax - c.vr| then do
        let q ← fdiv ((kr - c.vr) * (m - vr)) (c.vmax - c.vr)
        .ok (vr + q)
      else do
        let q ← fdiv ((m - vr) * (s - sr)) (c.mx - sr)
        .ok (vr + q)
    else .ok m

/-- Scaling of a relative permeability.  Models: `SaturationPropsFromDeck_impl.hpp:458-540`. -/
def Scale.value (c : Scale) (three other : Bool) (vmaxs vrs : List Rat) (cell : Nat) (s kr : Rat) : M Rat :=
  if vmaxs.isEmpty && vrs.isEmpty then .ok kr
  else if vrs.isEmpty then do
    let m ← rd vmaxs cell
    times kr m c.vmax
  else do
    let sr ← c.mid three
    let vr ← rd vrs cell
    c.values three other vmaxs cell vr s sr kr

/-- `relpermEPS` without derivatives.  Models: `SaturationPropsFromDeck_impl.hpp:377-540`. -/
def SatProps.relpermEPS (p : SatProps) (s : List Rat) (at_ cell : Nat) (kr : List Rat) (to_ : Nat) : M (List Rat) := do
  let wpos ← rd p.usage.pos Aqua
  let opos ← rd p.usage.pos Liquid
  let f ← p.funcForCell cell
  let sw ← rd s (at_ + wpos)
  let so ← rd s (at_ + opos)
  let cw ← p.waterScale f cell
  let co ← p.oilScale f cell
  let ssw ← cw.sat (!(p.eps.swcr.isEmpty && p.eps.swu.isEmpty)) p.do3pt sw
  let sso ← co.sat (!(p.eps.sowcr.isEmpty && p.eps.swl.isEmpty)) p.do3pt so
  let ss ← wr (List.replicate 3 0) wpos ssw
  let ss ← wr ss opos sso
  let kr ← f.evalKr p.kind ss 0 kr to_
  let w ← rd kr (to_ + wpos)
  let w ← cw.value p.do3pt (!p.eps.kro.isEmpty) p.eps.krw p.eps.krwr cell sw w
  let kr ← wr kr (to_ + wpos) w
  let o ← rd kr (to_ + opos)
  let o ← co.value p.do3pt (!p.eps.kro.isEmpty) p.eps.kro p.eps.krorw cell so o
  wr kr (to_ + opos) o

/-! ### Batches -/

/-- Relative permeabilities of one point, with end-point scaling if it is active. -/
def SatProps.krPoint (p : SatProps) (s : List Rat) (at_ cell : Nat) (kr : List Rat) (to_ : Nat) : M (List Rat) :=
  if p.doEps then p.relpermEPS s at_ cell kr to_
  else do
    let f ← p.funcForCell cell
    f.evalKr p.kind s at_ kr to_

/-- `relperm` without derivatives.  Models: `SaturationPropsFromDeck_impl.hpp:153-182`. -/
def SatProps.relperm (p : SatProps) (n : Nat) (s : List Rat) (cells : List Nat) (kr : List Rat) : M (List Rat) :=
  loop n (fun i kr => do
    let c ← rd cells i
    p.krPoint s (p.usage.num * i) c kr (p.usage.num * i)) kr

/-- One point with derivatives, which are not available with end-point scaling. -/
def SatProps.dkrPoint (p : SatProps) (s : List Rat) (at_ cell : Nat) (kr : List Rat) (to_ : Nat) (d : List Rat) (dto : Nat) : M (List Rat × List Rat) :=
  if p.doEps then .error .thrown
  else do
    let f ← p.funcForCell cell
    f.evalKrDeriv p.kind s at_ kr to_ d dto

/-- `relperm` with derivatives.  Models: `SaturationPropsFromDeck_impl.hpp:153-182`. -/
def SatProps.relpermDeriv (p : SatProps) (n : Nat) (s : List Rat) (cells : List Nat) (kr d : List Rat) : M (List Rat × List Rat) :=
  loop n (fun i r => do
    let c ← rd cells i
    p.dkrPoint s (p.usage.num * i) c r.1 (p.usage.num * i) r.2 (p.usage.num * p.usage.num * i)) (kr, d)

/-- `capPress`; the derivatives are left as they are without `deriv`.  Models: `SaturationPropsFromDeck_impl.hpp:198-218`. -/
def SatProps.capPress (p : SatProps) (deriv : Bool) (n : Nat) (s : List Rat) (cells : List Nat) (pc d : List Rat) : M (List Rat × List Rat) :=
  loop n (fun i r => do
    let c ← rd cells i
    let f ← p.funcForCell c
    f.evalPc deriv s (p.usage.num * i) r.1 (p.usage.num * i) r.2 (p.usage.num * p.usage.num * i)) (pc, d)

/-- `satRange`.  Models: `SaturationPropsFromDeck_impl.hpp:229-243`. -/
def SatProps.satRange (p : SatProps) (n : Nat) (cells : List Nat) (smin smax : List Rat) : M (List Rat × List Rat) :=
  loop n (fun i r =>
    loop p.usage.num (fun ph r => do
      let c ← rd cells i
      let f ← p.funcForCell c
      let a ← rd f.smin ph
      let x ← wr r.1 (p.usage.num * i + ph) a
      let b ← rd f.smax ph
      let y ← wr r.2 (p.usage.num * i + ph) b
      .ok (x, y)) r) (smin, smax)

/-! ### `SaturationPropsBasic` -/

/-- `RelPermFunc`. -/
inductive KrFun where
  | constant
  | linear
  | quadratic
  deriving DecidableEq, Repr

/-- `kr`.  Models: `SaturationPropsBasic.cpp:32-66`. -/
def KrFun.kr : KrFun → Rat → Rat
  | .constant, _ => 1
  | .linear, s => s
  | .quadratic, s => s * s
/-- `dkrds`. -/
def KrFun.dkr : KrFun → Rat → Rat
  | .constant, _ => 0
  | .linear, _ => 1
  | .quadratic, s => 2 * s

/-- Data members. -/
structure BasicSat where
  num : Nat
  func : KrFun
  deriving DecidableEq, Repr

/-- `init`, for the number of phases and the name of the function given as parameters (2 and "Linear" by default).  Models: `SaturationPropsBasic.cpp:113-134`. -/
def BasicSat.init (num : Int) (name : String) : M BasicSat :=
  if num > 2 ∨ num < 1 then .error .thrown
  else if name = "Constant" then (if num ≠ 1 then .error .thrown else .ok ⟨num.toNat, .constant⟩)
  else if name = "Linear" then .ok ⟨num.toNat, .linear⟩
  else if name = "Quadratic" then .ok ⟨num.toNat, .quadratic⟩
  else .error .thrown

/-- `relperm` without derivatives.  Models: `SaturationPropsBasic.cpp:70-79`. -/
def BasicSat.relperm (b : BasicSat) (n : Nat) (s kr : List Rat) : M (List Rat) :=
  loop (n * b.num) (fun i kr => do
    let x ← rd s i
    wr kr i (b.func.kr x)) kr

/-- One phase of one point.  Models: `SaturationPropsBasic.cpp:84-86`. -/
def BasicSat.one (b : BasicSat) (s : List Rat) (i phase : Nat) (r : List Rat × List Rat) : M (List Rat × List Rat) := do
  let x ← rd s (i * b.num + phase)
  let kr ← wr r.1 (i * b.num + phase) (b.func.kr x)
  let d ← wr r.2 (i * b.num * b.num + phase * b.num + phase) (b.func.dkr x)
  .ok (kr, d)

/-- `relperm` with derivatives.  Models: `SaturationPropsBasic.cpp:80-88`. -/
def BasicSat.relpermDeriv (b : BasicSat) (n : Nat) (s kr d : List Rat) : M (List Rat × List Rat) :=
  loop n (fun i r => do
    let d ← zeros (i * b.num * b.num) (b.num * b.num) r.2
    loop b.num (fun phase r => b.one s i phase r) (r.1, d)) (kr, d)

/-- `capPress`; `d` is the array of derivatives, if there is one.  Models: `SaturationPropsBasic.cpp:192-201`. -/
def BasicSat.capPress (b : BasicSat) (n : Nat) (pc : List Rat) (d : Option (List Rat)) : M (List Rat × Option (List Rat)) := do
  let pc ← zeros 0 (b.num * n) pc
  match d with
  | none => .ok (pc, none)
  | some d => do
    let d ← zeros 0 (b.num * b.num * n) d
    .ok (pc, some d)

/-- `satRange`.  Models: `SaturationPropsBasic.cpp:209-215`. -/
def BasicSat.satRange (b : BasicSat) (n : Nat) (smin smax : List Rat) : M (List Rat × List Rat) := do
  let a ← zeros 0 (b.num * n) smin
  let c ← loop (b.num * n) (fun j l => wr l j 1) smax
  .ok (a, c)

end Opm.SatFunc
