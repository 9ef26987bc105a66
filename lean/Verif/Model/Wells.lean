import Verif.Core.Buf
/-!
# Wells

Models `opm/core/wells/wells.c`.  Debug build (`assert` active).  Allocation never fails, and `realloc` of
zero bytes of a null pointer does not count as a failure (as in glibc).  Counts and positions are natural
numbers, well numbers passed by the user are integers.  A `struct WellControls *` owned by `ctrls[w]` is
represented by the controls themselves.
-/

namespace Opm.Wells
open Opm

/-- `enum WellType`.  Models: `wells.h:39-42`. -/
inductive WellType where
  | injector
  | producer
  deriving DecidableEq, Repr

/-- `enum WellControlType`.  Models: `wells.h:47-51`. -/
inductive CtrlType where
  | bhp
  | reservoirRate
  | surfaceRate
  deriving DecidableEq, Repr

/-- `struct WellControls` with its `WellControlMgmt`.  Models: `wells.h:78-110`, `wells.c:44-46`. -/
structure Controls where
  num : Nat
  type : List CtrlType
  target : List Rat
  distr : List Rat
  current : Int
  cpty : Nat
  deriving DecidableEq, Repr

/-- `struct Wells` with its `WellMgmt`.  Models: `wells.h:117-174`, `wells.c:48-51`. -/
structure W where
  nw : Nat
  np : Nat
  type : List WellType
  depthRef : List Rat
  compFrac : List Rat
  connpos : List Nat
  cells : List Int
  wi : List Rat
  ctrls : List Controls
  name : List (Option String)
  wellCpty : Nat
  perfCpty : Nat
  deriving DecidableEq, Repr

/-- Contents of freshly allocated memory. -/
structure Junk where
  wt : Nat → WellType
  ct : Nat → CtrlType
  dbl : Nat → Rat
  nat : Nat → Nat
  int : Nat → Int
  ctrl : Nat → Controls
  str : Nat → Option String

/-- `well_controls_create()`.  Models: `wells.c:115-141` and `:61-73`. -/
def controlsCreate : Controls := { num := 0, type := [], target := [], distr := [], current := -1, cpty := 0 }

/-- `well_controls_reserve(nctrl, nphases, ctrl)`.  Models: `wells.c:144-178`. -/
def controlsReserve (J : Junk) (nctrl np : Nat) (c : Controls) : M Controls := do
  let c := { c with
    type := realloc J.ct c.type (nctrl * 1)
    target := realloc J.dbl c.target (nctrl * 1)
    distr := realloc J.dbl c.distr (nctrl * np) }
  let c1 ← forRange c.cpty nctrl (fun i c => do
    let ty ← wr c.type i .bhp
    let ta ← wr c.target i (-1)
    .ok { c with type := ty, target := ta }) c
  let distr ← forRange (c.cpty * np) (nctrl * np) (fun p d => wr d p 0) c1.distr
  .ok { c1 with distr := distr, cpty := nctrl }

/-- `wells_allocate(nwells, W)`.  Models: `wells.c:181-211`. -/
def wellsAllocate (J : Junk) (n : Nat) (s : W) : W :=
  { s with
    type := realloc J.wt s.type (1 * n)
    depthRef := realloc J.dbl s.depthRef (1 * n)
    compFrac := realloc J.dbl s.compFrac (s.np * n)
    ctrls := realloc J.ctrl s.ctrls (1 * n)
    name := realloc J.str s.name (1 * n)
    connpos := realloc J.nat s.connpos (n + 1) }

/-- `perfs_allocate(nperf, W)`.  Models: `wells.c:214-230`. -/
def perfsAllocate (J : Junk) (n : Nat) (s : W) : W :=
  { s with cells := realloc J.int s.cells n, wi := realloc J.dbl s.wi n }

/-- Body of the first loop of `initialise_new_wells`.  Models: `wells.c:245-255`. -/
def initWell (w : Nat) (s : W) : M W := do
  let type ← wr s.type w .producer
  let depth ← wr s.depthRef w (-1)
  let name ← wr s.name w none
  let comp ← loop s.np (fun p c => wr c (s.np * w + p) 0) s.compFrac
  let x ← rd s.connpos w
  let pos ← wr s.connpos (w + 1) x
  .ok { s with type := type, depthRef := depth, name := name, compFrac := comp, connpos := pos }

/-- `initialise_new_wells(nwells, W)`.  Models: `wells.c:233-269`. -/
def initialiseNewWells (n : Nat) (s : W) : M W := do
  let s1 ← forRange s.wellCpty n initWell s
  let ctrls ← forRange s.wellCpty n (fun w c => wr c w controlsCreate) s1.ctrls
  .ok { s1 with ctrls := ctrls }

/-- `initialise_new_perfs(nperf, W)`.  Models: `wells.c:272-287`. -/
def initialiseNewPerfs (n : Nat) (s : W) : M W :=
  forRange s.perfCpty n (fun k s => do
    let cells ← wr s.cells k (-1)
    let wi ← wr s.wi k 0
    .ok { s with cells := cells, wi := wi }) s

/-- The well part of `wells_reserve`.  Models: `wells.c:306-316`. -/
def reserveWells (J : Junk) (n : Nat) (s : W) : M W :=
  if n > s.wellCpty then do
    let s ← initialiseNewWells n (wellsAllocate J n s)
    .ok { s with wellCpty := n }
  else .ok s

/-- The perforation part of `wells_reserve`.  Models: `wells.c:318-325`. -/
def reservePerfs (J : Junk) (n : Nat) (s : W) : M W :=
  if n > s.perfCpty then do
    let s ← initialiseNewPerfs n (perfsAllocate J n s)
    .ok { s with perfCpty := n }
  else .ok s

/-- `wells_reserve(nwells, nperf, W)`.  Models: `wells.c:290-328`. -/
def wellsReserve (J : Junk) (nwells nperf : Nat) (s : W) : M W := do
  check (decide (nwells ≥ s.wellCpty))
  check (decide (nperf ≥ s.perfCpty))
  let s ← reserveWells J nwells s
  reservePerfs J nperf s

/-- `create_wells(nphases, nwells, nperf)`.  Models: `wells.c:355-398`. -/
def createWells (J : Junk) (np nwells nperf : Nat) : M W :=
  let s : W := { nw := 0, np := np, type := [], depthRef := [], compFrac := [], connpos := [0], cells := [], wi := [],
                 ctrls := [], name := [], wellCpty := 0, perfCpty := 0 }
  if nwells > 0 ∨ nperf > 0 then wellsReserve J nwells nperf s else .ok s

/-- `alloc_size(n, a, cpty)`.  Models: `wells.c:437-451`. -/
def allocSize (n a cpty : Nat) : Nat :=
  if cpty < n + a then if cpty * 2 < n + a then n + a else cpty * 2 else cpty

/-- The reservation step of `add_well`.  Models: `wells.c:478-484`. -/
def addWellReserve (J : Junk) (nperf : Nat) (s : W) : M W := do
  let tot ← rd s.connpos s.nw
  if s.nw < s.wellCpty ∧ tot + nperf ≤ s.perfCpty then .ok s
  else wellsReserve J (allocSize s.nw 1 s.wellCpty) (allocSize tot nperf s.perfCpty) s

/-- Copying an optional array (`NULL` leaves the destination alone).
Models: `wells.c:495-497`, `:511-513`, `:556-559`. -/
def memcpyOpt (dst : List Rat) (off : Nat) (src : Option (List Rat)) (n : Nat) : M (List Rat) :=
  src.elim (.ok dst) (fun l => memcpy dst off l n)

/-- The perforation copy of `add_well`.  Models: `wells.c:489-498`. -/
def addWellPerfs (off : Nat) (cells : List Int) (wi : Option (List Rat)) (s : W) : M W :=
  if cells.length > 0 then do
    let c ← memcpy s.cells off cells cells.length
    let w ← memcpyOpt s.wi off wi cells.length
    .ok { s with cells := c, wi := w }
  else .ok s

/-- `add_well(type, depth_ref, nperf, comp_frac, cells, WI, name, W)`, with `nperf` the length of `cells`.
Models: `wells.c:454-520`. -/
def addWell (J : Junk) (type : WellType) (depth : Rat) (comp : Option (List Rat)) (cells : List Int) (wi : Option (List Rat))
    (name : Option String) (s : W) : M W := do
  let nw := s.nw
  let s ← addWellReserve J cells.length s
  let off ← rd s.connpos nw
  let s ← addWellPerfs off cells wi s
  let ty ← wr s.type nw type
  let de ← wr s.depthRef nw depth
  let nm ← name.elim (.ok s.name) (fun x => wr s.name nw (some x))
  let co ← memcpyOpt s.compFrac (s.np * nw) comp s.np
  let pos ← wr s.connpos (nw + 1) (off + cells.length)
  .ok { s with type := ty, depthRef := de, name := nm, compFrac := co, connpos := pos, nw := s.nw + 1 }

/-- The reservation step of `append_well_controls`.  Models: `wells.c:544-550`. -/
def controlRoom (J : Junk) (np : Nat) (c : Controls) : M Controls :=
  if c.num < c.cpty then .ok c else controlsReserve J (allocSize c.num 1 c.cpty) np c

/-- The part of `append_well_controls` that concerns the control structure.  Models: `wells.c:544-562`. -/
def appendControl (J : Junk) (np : Nat) (type : CtrlType) (target : Rat) (distr : Option (List Rat)) (c : Controls) : M Controls := do
  let c ← controlRoom J np c
  let ty ← wr c.type c.num type
  let ta ← wr c.target c.num target
  let di ← memcpyOpt c.distr (c.num * np) distr np
  .ok { c with type := ty, target := ta, distr := di, num := c.num + 1 }

/-- `append_well_controls(type, target, distr, well_index, W)`.  Models: `wells.c:523-565`. -/
def appendWellControls (J : Junk) (type : CtrlType) (target : Rat) (distr : Option (List Rat)) (w : Int) (s : W) : M W := do
  check (decide (0 ≤ w ∧ w < s.nw))
  let c ← rdI s.ctrls w
  let c ← appendControl J s.np type target distr c
  let cs ← wrI s.ctrls w c
  .ok { s with ctrls := cs }

/-- `set_current_control(well_index, current_control, W)`.  Models: `wells.c:568-581`. -/
def setCurrentControl (w cur : Int) (s : W) : M W := do
  check (decide (0 ≤ w ∧ w < s.nw))
  let c ← rdI s.ctrls w
  check (decide (cur < c.num))
  let cs ← wrI s.ctrls w { c with current := cur }
  .ok { s with ctrls := cs }

/-- `clear_well_controls(well_index, W)`.  Models: `wells.c:584-595`. -/
def clearWellControls (w : Int) (s : W) : M W := do
  check (decide (0 ≤ w ∧ w < s.nw))
  let c ← rdI s.ctrls w
  let cs ← wrI s.ctrls w { c with num := 0 }
  .ok { s with ctrls := cs }

/-- Body of the loop of `clone_wells` over the controls of well `w`.  Models: `wells.c:642-651`. -/
def cloneControl (J : Junk) (src : W) (c : Controls) (w k : Nat) (ret : W) : M W := do
  let ty ← rd c.type k
  let ta ← rd c.target k
  appendWellControls J ty ta (some (c.distr.drop (k * src.np))) w ret

/-- Body of the loop of `clone_wells` over the wells.  Models: `wells.c:624-660`. -/
def cloneWell (J : Junk) (src : W) (w : Nat) (ret : W) : M W := do
  let pos ← rd src.connpos w
  let nxt ← rd src.connpos (w + 1)
  let ty ← rd src.type w
  let de ← rd src.depthRef w
  let nm ← rd src.name w
  let cells := (src.cells.drop pos).take (nxt - pos)
  let wi := if src.perfCpty > 0 then some (src.wi.drop pos) else none
  let comp := if src.wellCpty > 0 then some (src.compFrac.drop (w * src.np)) else none
  let ret ← addWell J ty de comp cells wi nm ret
  let c ← rd src.ctrls w
  let rc ← rd ret.ctrls w
  let rc ← controlsReserve J c.num src.np rc
  let cs ← wr ret.ctrls w rc
  let ret ← loop c.num (cloneControl J src c w) { ret with ctrls := cs }
  setCurrentControl w c.current ret

/-- `clone_wells(W)`.  Simplification: the array `cells` handed to `add_well` is cut to its `nperf` elements.
Models: `wells.c:598-670`. -/
def cloneWells (J : Junk) (src : W) : M W := do
  let tot ← rd src.connpos src.nw
  let ret ← createWells J src.np src.nw tot
  loop src.nw (cloneWell J src) ret

/-- A mutating call. -/
inductive Op where
  | addWell (type : WellType) (depth : Rat) (comp : Option (List Rat)) (cells : List Int) (wi : Option (List Rat)) (name : Option String)
  | appendControls (type : CtrlType) (target : Rat) (distr : Option (List Rat)) (w : Int)
  | setCurrent (w cur : Int)
  | clearControls (w : Int)

def Op.exec (J : Junk) : Op → W → M W
  | .addWell t d c cs wi n, s => Wells.addWell J t d c cs wi n s
  | .appendControls t g d w, s => appendWellControls J t g d w s
  | .setCurrent w c, s => setCurrentControl w c s
  | .clearControls w, s => clearWellControls w s

/-- A sequence of mutating calls. -/
def run (J : Junk) (ops : List Op) (s : W) : M W := ops.foldlM (fun s op => op.exec J s) s

end Opm.Wells
