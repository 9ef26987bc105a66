import Verif.Model.WellsGroup
/-!
# Wells from a deck

Models the constructor of `WellsManager` that reads a deck (`opm/core/wells/WellsManager.cpp:236-803`), up to and
including the keyword `WELOPEN`; the group hierarchy is in `Verif.Model.WellTree`.  The deck is the list of records
of each keyword, absent keywords are `none`.  The Peaceman formula of `computeWellIndex` (logarithms and roots) is a
parameter.  Simplifications: integers do not overflow; messages to the console are left out; strings contain no zero
characters.
-/

namespace Opm.Manager
open Opm Wells Groups

/-- A record of `WELSPECS`.  Models: `SpecialEclipseFields.hpp:766-789` (the fields that are used). -/
structure WelspecsLine where
  name : String
  group : String
  I : Int
  J : Int
  datumDepth : Rat
  deriving DecidableEq, Repr

/-- A record of `COMPDAT`; the four grid indices are `I`, `J`, `K1`, `K2`.
Models: `SpecialEclipseFields.hpp:883-909` (the fields that are used). -/
structure CompdatLine where
  well : String
  I : Int
  J : Int
  K1 : Int
  K2 : Int
  trans : Rat
  diameter : Rat
  skin : Rat
  deriving DecidableEq, Repr

/-- A record of `WCONINJE`.  Models: `SpecialEclipseFields.hpp:1096-1119` (the fields that are used). -/
structure WconinjeLine where
  well : String
  injectorType : String
  openShut : String := "OPEN"
  controlMode : String
  surfaceMax : Rat := -10 ^ 20
  reservoirMax : Rat := -10 ^ 20
  bhp : Rat := 6891
  thp : Rat := -10 ^ 20
  deriving DecidableEq, Repr

/-- A record of `WCONPROD`.  Models: `SpecialEclipseFields.hpp:1452-1479` (the fields that are used). -/
structure WconprodLine where
  well : String
  openShut : String := "OPEN"
  controlMode : String
  oilMax : Rat := -10 ^ 20
  waterMax : Rat := -10 ^ 20
  gasMax : Rat := -10 ^ 20
  liquidMax : Rat := -10 ^ 20
  reservoirMax : Rat := -10 ^ 20
  bhp : Rat := 1
  thp : Rat := 0
  deriving DecidableEq, Repr

/-- The parts of the grid that are used; `cartdims` is an array of three numbers.  Models: `grid.h:97-235`. -/
structure Grid where
  dimensions : Int
  ncells : Nat
  globalCell : Option (List Int)
  cartdims : Int × Int × Int
  facepos : List Nat
  faces : List Int
  faceCentroids : List Rat
  cellCentroids : List Rat

/-- `struct WellData`; the type is `none` as long as it has not been written.  Models: `WellsManager.cpp:44-52`. -/
structure WellData where
  type : Option WellType
  depth : Rat
  line : Nat
  deriving DecidableEq, Repr

/-- The wells found so far: `well_names`, `well_data`, `well_names_to_index`.  Models: `WellsManager.cpp:263-268`. -/
structure Found where
  names : List String
  data : List WellData
  index : List (String × Nat)
  deriving DecidableEq, Repr

/-! ### WELSPECS -/

/-- The depth a record gives, or the marker of a defaulted one.  Models: `WellsManager.cpp:295`, `:301`. -/
def refDepth (d : Rat) : Rat := if d < 0 then -10 ^ 100 else d

/-- One record of `WELSPECS`.  Models: `WellsManager.cpp:280-303`. -/
def welspecsStep (w : Nat) (l : WelspecsLine) (f : Found) : M Found :=
  match f.index.lookup l.name with
  | none => .ok ⟨f.names ++ [l.name], f.data ++ [⟨none, refDepth l.datumDepth, w⟩], (l.name, f.data.length) :: f.index⟩
  | some wix => do
    let d ← rd f.data wix
    let ds ← wr f.data wix { d with depth := refDepth l.datumDepth, line := w }
    .ok { f with data := ds }

/-- The loop over the records of `WELSPECS`, from record `w` on.  Models: `WellsManager.cpp:275-305`. -/
def readWelspecs : Nat → List WelspecsLine → Found → M Found
  | _, [], f => .ok f
  | w, l :: ls, f => do
    let f ← welspecsStep w l f
    readWelspecs (w + 1) ls f

/-! ### COMPDAT -/

/-- Inserts into a map unless the key is present. -/
def putNew (k : Int) (v : Nat) (m : List (Int × Nat)) : List (Int × Nat) :=
  match m.lookup k with
  | none => (k, v) :: m
  | some _ => m

/-- `cartesian_to_compressed`.  Models: `WellsManager.cpp:311-324`. -/
def cartToCompressed (g : Grid) : M (List (Int × Nat)) :=
  match g.globalCell with
  | some gc => loop g.ncells (fun i m => do
      let k ← rd gc i
      .ok (putNew k i m)) []
  | none => loop g.ncells (fun i m => .ok (putNew (i : Int) i m)) []

/-- Whether a record for the given name is about the given well: a name is cut at the first `*` and then
compared with the beginning of the well's name; without `*` the names are compared.
Models: `WellsManager.cpp:334-342`, `:486-493`, `:577-584`. -/
def nameMatches (pattern name : String) : Bool :=
  if '*' ∈ pattern.toList then
    decide (name.toList.take (pattern.toList.takeWhile (· ≠ '*')).length = pattern.toList.takeWhile (· ≠ '*'))
  else decide (name = pattern)

/-- `struct PerfData`.  Models: `WellsManager.cpp:55-59`. -/
structure Perf where
  cell : Nat
  wi : Rat
  deriving DecidableEq, Repr

/-- Largest minus smallest element; undefined for an empty list.  Models: `WellsManager.cpp:159-161`. -/
def extent (x : List Rat) : M Rat :=
  match x with
  | [] => .error .ub
  | a :: as => .ok (as.foldl max a - as.foldl min a)

/-- Coordinate `c` of the centroids of the faces of a cell.  Models: `WellsManager.cpp:148-158`. -/
def faceCoords (g : Grid) (cell c : Nat) : M (List Rat) := do
  let p ← rd g.facepos cell
  let q ← rd g.facepos (cell + 1)
  loop (q - p) (fun lf x => do
    let f ← rd g.faces (p + lf)
    let v ← rdI g.faceCentroids (g.dimensions * f + c)
    .ok (x ++ [v])) []

/-- `getCubeDim(grid, cell)`.  Models: `WellsManager.cpp:144-163`. -/
def cubeDim (g : Grid) (cell : Nat) : M (Rat × Rat × Rat) := do
  let x ← faceCoords g cell 0
  let y ← faceCoords g cell 1
  let z ← faceCoords g cell 2
  let dx ← extent x
  let dy ← extent y
  let dz ← extent z
  .ok (dx, dy, dz)

/-- The well model: radius, size of the cell, permeabilities in x and y, skin factor.
Stands for: `WellsManager.cpp:171-209`. -/
abbrev Peaceman := Rat → Rat × Rat × Rat → Rat → Rat → Rat → M Rat

/-- The radius of a perforation; half a foot if it is not given.  Models: `WellsManager.cpp:384-388`. -/
def radius (diameter : Rat) : Rat := if 1 / 2 * diameter ≤ 0 then 1 / 2 * (3048 / 10000) else 1 / 2 * diameter

/-- The well index of a perforation.  Models: `WellsManager.cpp:381-393`. -/
def wellIndex (pm : Peaceman) (g : Grid) (perm : List Rat) (l : CompdatLine) (cell : Nat) : M Rat :=
  if l.trans > 0 then .ok l.trans
  else do
    let cube ← cubeDim g cell
    let kx ← rdI perm (g.dimensions * g.dimensions * cell)
    let ky ← rdI perm (g.dimensions * g.dimensions * cell + 4)
    pm (radius l.diameter) cube kx ky l.skin

/-- A grid index of a record (numbered from one), or the given value if it is not positive.
Models: `WellsManager.cpp:348-368`. -/
def gridIndex (i dflt : Int) : Int := if i - 1 < 0 then dflt else i - 1

/-- The perforation of one layer.  Models: `WellsManager.cpp:371-393`. -/
def perforate (pm : Peaceman) (g : Grid) (perm : List Rat) (ctc : List (Int × Nat)) (l : CompdatLine) (ix jy kz : Int) : M Perf :=
  match ctc.lookup (ix + g.cartdims.1 * (jy + g.cartdims.2.1 * kz)) with
  | none => .error .thrown
  | some cell => do
    let wi ← wellIndex pm g perm l cell
    .ok ⟨cell, wi⟩

/-- The perforations a record adds to a well.  Models: `WellsManager.cpp:345-395`. -/
def compdatPerfs (pm : Peaceman) (g : Grid) (perm : List Rat) (ctc : List (Int × Nat)) (spec : WelspecsLine) (l : CompdatLine) (old : List Perf) :
    M (List Perf) :=
  let kz1 := gridIndex l.K1 0
  loop (gridIndex l.K2 (g.cartdims.2.2 - 1) - kz1 + 1).toNat (fun k ps => do
    let p ← perforate pm g perm ctc l (gridIndex l.I (spec.I - 1)) (gridIndex l.J (spec.J - 1)) (kz1 + k)
    .ok (ps ++ [p])) old

/-- One record of `COMPDAT`: only the first well with a matching name is considered.
Models: `WellsManager.cpp:332-403`. -/
def compdatStep (pm : Peaceman) (g : Grid) (perm : List Rat) (ctc : List (Int × Nat)) (specs : List WelspecsLine) (f : Found)
    (l : CompdatLine) (perfs : List (List Perf)) : M (List (List Perf)) :=
  match f.names.findIdx? (nameMatches l.well) with
  | none => .error .thrown
  | some wix => do
    let d ← rd f.data wix
    let spec ← rd specs d.line
    let old ← rd perfs wix
    let ps ← compdatPerfs pm g perm ctc spec l old
    wr perfs wix ps

/-- The loop over the records of `COMPDAT`.  Models: `WellsManager.cpp:306`, `:311-404`. -/
def readCompdat (pm : Peaceman) (g : Grid) (perm : List Rat) (specs : List WelspecsLine) (f : Found) (ls : List CompdatLine) : M (List (List Perf)) := do
  let ctc ← cartToCompressed g
  ls.foldlM (fun perfs l => compdatStep pm g perm ctc specs f l perfs) (List.replicate f.data.length [])

/-- The depth of the highest perforation; `1e100` without perforations.  Models: `WellsManager.cpp:413-418`. -/
def minDepth (g : Grid) (ps : List Perf) : M Rat :=
  ps.foldlM (fun m p => do
    let z ← rd g.cellCentroids (3 * p.cell + 2)
    .ok (min m z)) (10 ^ 100)

/-- The final reference depth of a well.  Models: `WellsManager.cpp:411-420`. -/
def finalDepth (g : Grid) (d : WellData) (ps : List Perf) : M Rat :=
  if d.depth < 0 then minDepth g ps else .ok d.depth

/-- Reference depths of all wells.  Models: `WellsManager.cpp:407-421`. -/
def setDepths (g : Grid) : List WellData → List (List Perf) → M (List WellData)
  | d :: ds, ps :: pss => do
    let z ← finalDepth g d ps
    let r ← setDepths g ds pss
    .ok ({ d with depth := z } :: r)
  | _, _ => .ok []

/-! ### Types -/

/-- Sets the type of the wells named in the records of a keyword.  Models: `WellsManager.cpp:430-454`. -/
def classify (index : List (String × Nat)) (t : WellType) : List String → List WellData → M (List WellData)
  | [], ds => .ok ds
  | n :: ns, ds =>
    match index.lookup n with
    | none => .error .thrown
    | some i => do
      let d ← rd ds i
      let ds ← wr ds i { d with type := some t }
      classify index t ns ds

/-- Adds one well.  A type that has not been set is indeterminate.  (For a well without perforations the code takes
the address of the first element of an empty vector.)  Models: `WellsManager.cpp:458-472`. -/
def addOne (J : Junk) (name : String) (d : WellData) (ps : List Perf) (s : W) : M W :=
  match d.type with
  | none => .error .ub
  | some t => addWell J t d.depth none (ps.map (fun p => (p.cell : Int))) (some (ps.map Perf.wi)) (some name) s

/-- Adds all wells.  Models: `WellsManager.cpp:456-473`. -/
def addAll (J : Junk) : List String → List WellData → List (List Perf) → W → M W
  | n :: ns, d :: ds, ps :: pss, s => do
    let s ← addOne J n d ps s
    addAll J ns ds pss s
  | _, _, _, s => .ok s

/-! ### Controls -/

/-- Appends a control if its limit is given, recording its position.
Models: the tests of `WellsManager.cpp:506-522` and `:596-650`. -/
def appendIf (J : Junk) (c : Bool) (t : CtrlType) (target : Rat) (distr : Option (List Rat)) (wix slot : Nat) (r : List Int × W) : M (List Int × W) :=
  if c then do
    let k ← rd r.2.ctrls wix
    let pos ← wr r.1 slot k.num
    let s ← appendWellControls J t target distr wix r.2
    .ok (pos, s)
  else .ok r

/-- `InjectionControl::mode`: the position in `control_pos`.  Models: `WellsManager.cpp:105-141`. -/
def injMode (m : String) : M Nat :=
  if m = "RATE" then .ok 0
  else if m = "RESV" then .ok 1
  else if m = "BHP" then .ok 2
  else if m = "THP" then .ok 3
  else if m = "GRUP" then .ok 4
  else .error .thrown

/-- `ProductionControl::mode`: the position in `control_pos`.  Models: `WellsManager.cpp:61-102`. -/
def prodMode (m : String) : M Nat :=
  if m = "ORAT" then .ok 0
  else if m = "WRAT" then .ok 1
  else if m = "GRAT" then .ok 2
  else if m = "LRAT" then .ok 3
  else if m = "CRAT" then .ok 4
  else if m = "RESV" then .ok 5
  else if m = "BHP" then .ok 6
  else if m = "THP" then .ok 7
  else if m = "GRUP" then .ok 8
  else .error .thrown

/-- The current control: the position of the control of the given mode; complemented if the well is shut.  `grup` is
the mode for which no control need be present.  Models: `WellsManager.cpp:530-538` and `:658-666`. -/
def chooseCurrent (pos : List Int) (mode grup : Nat) (openShut : String) (wix : Nat) (s : W) : M W := do
  let cpos ← rd pos mode
  if cpos = -1 ∧ mode ≠ grup then .error .thrown
  else setCurrentControl wix (if openShut = "SHUT" then -cpos - 1 else cpos) s

/-- A weight of one for the given phase, which must be in use.  Models: `WellsManager.cpp:597-602` and similar. -/
def phaseWeight (pu : PhaseUsage) (p : Phase) (d : List Rat) : M (List Rat) :=
  if pu.used p then wr d (pu.pos p) 1 else .error .thrown

/-- Weights of the given phases, computed only if the limit is given.  Models: `WellsManager.cpp:596-639`. -/
def phaseWeights (pu : PhaseUsage) (c : Bool) (ps : List Phase) : M (List Rat) :=
  if c then ps.foldlM (fun d p => phaseWeight pu p d) [0, 0, 0] else .ok [0, 0, 0]

/-- The component fractions of an injector.  Models: `WellsManager.cpp:541-557`. -/
def injFractions (pu : PhaseUsage) (injectorType : String) : M (List Rat) :=
  match injectorType.toList.head? with
  | some 'W' => phaseWeight pu .aqua [0, 0, 0]
  | some 'O' => phaseWeight pu .liquid [0, 0, 0]
  | some 'G' => phaseWeight pu .vapour [0, 0, 0]
  | _ => .ok [0, 0, 0]

/-- Writes the component fractions of a well.  Models: `WellsManager.cpp:558`. -/
def setFractions (np wix : Nat) (cf : List Rat) (s : W) : M W := do
  let c ← memcpy s.compFrac (wix * np) cf np
  .ok { s with compFrac := c }

/-- A record of `WCONINJE` applied to one well.  Models: `WellsManager.cpp:495-558`. -/
def injectWell (J : Junk) (pu : PhaseUsage) (l : WconinjeLine) (d : WellData) (wix : Nat) (s : W) : M W := do
  let ty ← rd s.type wix
  check (decide (d.type = some ty))
  if d.type ≠ some .injector then .error .thrown
  else do
    let s ← clearWellControls wix s
    let r ← appendIf J (decide (l.surfaceMax ≥ 0)) .surfaceRate l.surfaceMax (some [1, 1, 1]) wix 0 ([-1, -1, -1, -1, -1], s)
    let r ← appendIf J (decide (l.reservoirMax ≥ 0)) .reservoirRate l.reservoirMax (some [1, 1, 1]) wix 1 r
    let r ← appendIf J (decide (l.bhp > 0)) .bhp l.bhp none wix 2 r
    if l.thp > 0 then .error .thrown
    else do
      let m ← injMode l.controlMode
      let s ← chooseCurrent r.1 m 4 l.openShut wix r.2
      let cf ← injFractions pu l.injectorType
      setFractions pu.num wix cf s

/-- A record of `WCONPROD` applied to one well.  Models: `WellsManager.cpp:586-666`. -/
def produceWell (J : Junk) (pu : PhaseUsage) (l : WconprodLine) (d : WellData) (wix : Nat) (s : W) : M W := do
  let ty ← rd s.type wix
  check (decide (d.type = some ty))
  if d.type ≠ some .producer then .error .thrown
  else do
    let s ← clearWellControls wix s
    let w ← phaseWeights pu (decide (l.oilMax ≥ 0)) [.liquid]
    let r ← appendIf J (decide (l.oilMax ≥ 0)) .surfaceRate (-l.oilMax) (some w) wix 0 ([-1, -1, -1, -1, -1, -1, -1, -1, -1], s)
    let w ← phaseWeights pu (decide (l.waterMax ≥ 0)) [.aqua]
    let r ← appendIf J (decide (l.waterMax ≥ 0)) .surfaceRate (-l.waterMax) (some w) wix 1 r
    let w ← phaseWeights pu (decide (l.gasMax ≥ 0)) [.vapour]
    let r ← appendIf J (decide (l.gasMax ≥ 0)) .surfaceRate (-l.gasMax) (some w) wix 2 r
    let w ← phaseWeights pu (decide (l.liquidMax ≥ 0)) [.aqua, .liquid]
    let r ← appendIf J (decide (l.liquidMax ≥ 0)) .surfaceRate (-l.liquidMax) (some w) wix 3 r
    let r ← appendIf J (decide (l.reservoirMax ≥ 0)) .reservoirRate (-l.reservoirMax) (some [1, 1, 1]) wix 5 r
    let r ← appendIf J (decide (l.bhp > 0)) .bhp l.bhp none wix 6 r
    if l.thp > 0 then .error .thrown
    else do
      let m ← prodMode l.controlMode
      chooseCurrent r.1 m 8 l.openShut wix r.2

/-- The loop over the wells for one record: all wells with a matching name, from number `wix` on; returns whether
there was one.  Models: `WellsManager.cpp:491-560`, `:582-668`. -/
def forMatching (pattern : String) (act : WellData → Nat → W → M W) : Nat → List String → List WellData → Bool → W → M (Bool × W)
  | wix, n :: ns, d :: ds, found, s =>
    if nameMatches pattern n then do
      let s ← act d wix s
      forMatching pattern act (wix + 1) ns ds true s
    else forMatching pattern act (wix + 1) ns ds found s
  | _, _, _, found, s => .ok (found, s)

/-- One record.  Models: `WellsManager.cpp:483-564`, `:576-672`. -/
def controlStep (pattern : String) (act : WellData → Nat → W → M W) (names : List String) (data : List WellData) (s : W) : M W := do
  let r ← forMatching pattern act 0 names data false s
  if r.1 then .ok r.2 else .error .thrown

/-- The records of `WCONINJE`.  Models: `WellsManager.cpp:479-566`. -/
def readWconinje (J : Junk) (pu : PhaseUsage) (names : List String) (data : List WellData) (ls : List WconinjeLine) (s : W) : M W :=
  ls.foldlM (fun s l => controlStep l.well (injectWell J pu l) names data s) s

/-- The records of `WCONPROD`.  Models: `WellsManager.cpp:572-674`. -/
def readWconprod (J : Junk) (pu : PhaseUsage) (names : List String) (data : List WellData) (ls : List WconprodLine) (s : W) : M W :=
  ls.foldlM (fun s l => controlStep l.well (produceWell J pu l) names data s) s

/-! ### WELOPEN -/

/-- What a record of `WELOPEN` does to the current control.  Models: `WellsManager.cpp:735-749`. -/
def openShutCurrent (flag : String) (cur : Int) : M Int :=
  if flag = "SHUT" then .ok (if cur ≥ 0 then -cur - 1 else cur)
  else if flag = "OPEN" then .ok (if cur < 0 then -cur - 1 else cur)
  else .error .thrown

/-- One record of `WELOPEN`: well name and flag.  Models: `WellsManager.cpp:728-749`. -/
def welopenStep (index : List (String × Nat)) (l : String × String) (s : W) : M W :=
  match index.lookup l.1 with
  | none => .error .thrown
  | some i => do
    let c ← rd s.ctrls i
    let cur ← openShutCurrent l.2 c.current
    let cs ← wr s.ctrls i { c with current := cur }
    .ok { s with ctrls := cs }

/-- The records of `WELOPEN`.  Models: `WellsManager.cpp:725-751`. -/
def readWelopen (index : List (String × Nat)) (ls : List (String × String)) (s : W) : M W :=
  ls.foldlM (fun s l => welopenStep index l s) s

/-! ### The whole deck -/

/-- The keywords about wells.  `weltarg` says that the keyword is present. -/
structure Deck where
  water : Bool
  oil : Bool
  gas : Bool
  welspecs : Option (List WelspecsLine) := none
  compdat : Option (List CompdatLine) := none
  wconinje : Option (List WconinjeLine) := none
  wconprod : Option (List WconprodLine) := none
  weltarg : Bool := false
  welopen : Option (List (String × String)) := none

/-- The wells of a deck. -/
structure Built where
  pu : PhaseUsage
  names : List String
  data : List WellData
  index : List (String × Nat)
  wells : W

/-- The constructor without the group hierarchy, for decks with `WELSPECS` and `COMPDAT`.
Models: `WellsManager.cpp:258-751`. -/
def buildWells (J : Junk) (pm : Peaceman) (g : Grid) (perm : List Rat) (dk : Deck) (specs : List WelspecsLine) (comp : List CompdatLine) : M Built := do
  let pu ← phaseUsageFromDeck dk.water dk.oil dk.gas
  let f ← readWelspecs 0 specs ⟨[], [], []⟩
  let perfs ← readCompdat pm g perm specs f comp
  let data ← setDepths g f.data perfs
  let s ← createWells J pu.num f.data.length (perfs.map List.length).sum
  let data ← classify f.index .injector ((dk.wconinje.getD []).map WconinjeLine.well) data
  let data ← classify f.index .producer ((dk.wconprod.getD []).map WconprodLine.well) data
  let s ← addAll J f.names data perfs s
  let s ← readWconinje J pu f.names data (dk.wconinje.getD []) s
  let s ← readWconprod J pu f.names data (dk.wconprod.getD []) s
  if dk.weltarg then .error .thrown
  else do
    let s ← readWelopen f.index (dk.welopen.getD []) s
    .ok ⟨pu, f.names, data, f.index, s⟩

/-- The constructor without the group hierarchy: `none` if the deck has no wells.
Models: `WellsManager.cpp:242-751`. -/
def wellsFromDeck (J : Junk) (pm : Peaceman) (g : Grid) (perm : List Rat) (dk : Deck) : M (Option Built) :=
  if g.dimensions ≠ 3 then .error .thrown
  else match dk.welspecs, dk.compdat with
  | some specs, some comp =>
    if dk.wconinje = none ∧ dk.wconprod = none then .error .thrown
    else do
      let b ← buildWells J pm g perm dk specs comp
      .ok (some b)
  | _, _ => .ok none

end Opm.Manager
