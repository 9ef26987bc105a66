import Verif.Model.WellsManager
/-!
# The group hierarchy of a deck

Models `createWellsGroup` (`opm/core/wells/WellsGroup.cpp:967-1138`), `WellCollection::addChild` for names
(`opm/core/wells/WellCollection.cpp:26-64`) and the end of the constructor of `WellsManager`
(`opm/core/wells/WellsManager.cpp:753-802`).

A node is found by its name with the first match in preorder, as in the code.  The number of a well
(`self_index_`) is its position in `leaf_nodes_`; the code sets it at the end (`setWellsPointer`), here it is set when
the node is created.  If a root becomes a child of a node below itself, the nodes of that tree refer to each other in
a circle and are no longer reachable from the roots: here they are left out.
-/

namespace Opm.Manager
open Opm Wells Groups

/-- A record of `GCONINJE`.  Models: `SpecialEclipseFields.hpp:998-1016`. -/
structure GconinjeLine where
  group : String
  injectorType : String
  controlMode : String
  surfaceMax : Rat := -10 ^ 20
  reservoirMax : Rat := -10 ^ 20
  reinjection : Rat := 1
  voidage : Rat := 1
  deriving DecidableEq, Repr

/-- A record of `GCONPROD`.  Models: `SpecialEclipseFields.hpp:1211-1228`. -/
structure GconprodLine where
  group : String
  controlMode : String
  oilMax : Rat := -10 ^ 20
  waterMax : Rat := -10 ^ 20
  gasMax : Rat := -10 ^ 20
  liquidMax : Rat := -10 ^ 20
  reservoirMax : Rat := -10 ^ 20
  procedure : String := "NONE"
  deriving DecidableEq, Repr

/-- A record of `WGRUPCON` (`available_for_group_control_` is not used).
Models: `SpecialEclipseFields.hpp:1359-1369`. -/
structure WgrupconLine where
  well : String
  guideRate : Rat := -1
  phase : String
  deriving DecidableEq, Repr

/-- A deck with the keywords about groups.  `gruptree` are the records (child, parent) in deck order. -/
structure FieldDeck where
  base : Deck
  gruptree : Option (List (String × String)) := none
  gconinje : Option (List GconinjeLine) := none
  gconprod : Option (List GconprodLine) := none
  wgrupcon : Option (List WgrupconLine) := none

/-! ### Creating nodes -/

/-- `toInjectorType(type)`.  Models: `WellsGroup.cpp:969-981`. -/
def toInjectorType (t : String) : M InjectorType :=
  match t.toList.head? with
  | some 'O' => .ok .oil
  | some 'W' => .ok .water
  | some 'G' => .ok .gas
  | _ => .error .thrown

/-- `toInjectionControlMode(type)`.  Models: `WellsGroup.cpp:989-1001`. -/
def toInjMode (t : String) : M InjMode :=
  if t = "NONE" then .ok .none
  else if t = "RATE" then .ok .rate
  else if t = "RESV" then .ok .resv
  else if t = "BHP" then .ok .bhp
  else if t = "THP" then .ok .thp
  else if t = "REIN" then .ok .rein
  else if t = "VREP" then .ok .vrep
  else if t = "GRUP" then .ok .grup
  else if t = "FLD" then .ok .fld
  else .error .thrown

/-- `toProductionControlMode(type)`.  Models: `WellsGroup.cpp:1009-1024`. -/
def toProdMode (t : String) : M ProdMode :=
  if t = "NONE" then .ok .none
  else if t = "ORAT" then .ok .orat
  else if t = "WRAT" then .ok .wrat
  else if t = "GRAT" then .ok .grat
  else if t = "LRAT" then .ok .lrat
  else if t = "CRAT" then .ok .crat
  else if t = "RESV" then .ok .resv
  else if t = "PRBL" then .ok .prbl
  else if t = "BHP" then .ok .bhp
  else if t = "THP" then .ok .thp
  else if t = "GRUP" then .ok .grup
  else if t = "FLD" then .ok .fld
  else .error .thrown

/-- `toProductionProcedure(type)`.  Models: `WellsGroup.cpp:1027-1041`. -/
def toProcedure (t : String) : M Procedure :=
  if t = "NONE" then .ok .none
  else if t = "RATE" then .ok .rate
  else if t = "WELL" then .ok .well
  else .error .thrown

/-- A record of `WCONINJE` in the specifications of a well.  Models: `WellsGroup.cpp:1069-1077`. -/
def wellInjLine (name : String) (r : ProdSpec × InjSpec) (l : WconinjeLine) : M (ProdSpec × InjSpec) :=
  if l.well = name then do
    let t ← toInjectorType l.injectorType
    let m ← toInjMode l.controlMode
    .ok ({ r.1 with guideRate := 0 }, { r.2 with injectorType := t, mode := m, surfaceMax := l.surfaceMax, reservoirMax := l.reservoirMax })
  else .ok r

/-- A record of `WCONPROD` in the specifications of a well (gas and liquid limits are not copied).
Models: `WellsGroup.cpp:1084-1092`. -/
def wellProdLine (name : String) (r : ProdSpec × InjSpec) (l : WconprodLine) : M (ProdSpec × InjSpec) :=
  if l.well = name then do
    let m ← toProdMode l.controlMode
    .ok ({ r.1 with reservoirMax := l.reservoirMax, oilMax := l.oilMax, mode := m, waterMax := l.waterMax }, { r.2 with guideRate := 0 })
  else .ok r

/-- A record of `GCONINJE` in the specification of a group.  Models: `WellsGroup.cpp:1101-1109`. -/
def groupInjLine (name : String) (i : InjSpec) (l : GconinjeLine) : M InjSpec :=
  if l.group = name then do
    let t ← toInjectorType l.injectorType
    let m ← toInjMode l.controlMode
    .ok { i with injectorType := t, mode := m, surfaceMax := l.surfaceMax, reservoirMax := l.reservoirMax, reinjectionFraction := l.reinjection, voidageFraction := l.voidage }
  else .ok i

/-- A record of `GCONPROD` in the specification of a group.  Models: `WellsGroup.cpp:1119-1129`. -/
def groupProdLine (name : String) (p : ProdSpec) (l : GconprodLine) : M ProdSpec :=
  if l.group = name then do
    let m ← toProdMode l.controlMode
    let pr ← toProcedure l.procedure
    .ok { p with oilMax := l.oilMax, mode := m, waterMax := l.waterMax, gasMax := l.gasMax, liquidMax := l.liquidMax, procedure := pr, reservoirMax := l.reservoirMax }
  else .ok p

/-- `createWellsGroup(name, deck)`; a well gets the number `self`.  Models: `WellsGroup.cpp:1044-1137`. -/
def createNode (dk : FieldDeck) (name : String) (self : Nat) : M Node :=
  if name ∈ (dk.base.welspecs.getD []).map WelspecsLine.name then do
    let r ← (dk.base.wconinje.getD []).foldlM (wellInjLine name) ({}, {})
    let r ← (dk.base.wconprod.getD []).foldlM (wellProdLine name) r
    .ok (.well name r.1 r.2 self (-1))
  else do
    let i ← (dk.gconinje.getD []).foldlM (groupInjLine name) {}
    let p ← (dk.gconprod.getD []).foldlM (groupProdLine name) {}
    .ok (.group name p i [])

/-! ### The tree -/

/-- `name()`.  Models: `WellsGroup.cpp:74-77`. -/
def _root_.Opm.Groups.Node.name : Node → String
  | .group n _ _ _ => n
  | .well n _ _ _ _ => n

/-- `isLeafNode()`.  Models: `WellsGroup.cpp:84-87`, `:723-726`. -/
def _root_.Opm.Groups.Node.isLeaf : Node → Bool
  | .group _ _ _ _ => false
  | .well _ _ _ _ _ => true

mutual
/-- `findGroup(name)`.  Models: `WellsGroup.cpp:228-243`, `:713-721`. -/
def _root_.Opm.Groups.Node.findGroup (nm : String) : Node → Option Node
  | .group n p i cs => if n = nm then some (.group n p i cs) else findNode nm cs
  | .well n p i s g => if n = nm then some (.well n p i s g) else none
/-- `WellCollection::findNode(name)` and the loop over children.  Models: `WellCollection.cpp:72-82`. -/
def findNode (nm : String) : List Node → Option Node
  | [] => none
  | c :: cs =>
    match c.findGroup nm with
    | some r => some r
    | none => findNode nm cs
end

mutual
/-- The tree after `children_.push_back(child)` in the first group of that name.  Models: `WellsGroup.cpp:404-407`. -/
def pushNode (nm : String) (ch : Node) : Node → Option Node
  | .group n p i cs => if n = nm then some (.group n p i (cs ++ [ch])) else (pushIn nm ch cs).map (Node.group n p i)
  | .well _ _ _ _ _ => none
/-- The same for a list of trees. -/
def pushIn (nm : String) (ch : Node) : List Node → Option (List Node)
  | [] => none
  | c :: cs =>
    match pushNode nm ch c with
    | some c' => some (c' :: cs)
    | none => (pushIn nm ch cs).map (c :: ·)
end

/-- `roots_` and the names of `leaf_nodes_`.  Models: `WellCollection.hpp:115-118`. -/
structure Coll where
  roots : List Node
  leaves : List String

/-- The cast of the parent to a group is undefined for a well.  Models: `WellCollection.cpp:53-56`. -/
def castGroup (nm : String) (rs : List Node) : M Unit :=
  match findNode nm rs with
  | some (.group _ _ _ _) => .ok ()
  | _ => .error .ub

/-- The roots with the parent among the nodes.  Models: `WellCollection.cpp:30-34`. -/
def withParent (dk : FieldDeck) (parent : String) (c : Coll) : M (List Node) :=
  match findNode parent c.roots with
  | some _ => .ok c.roots
  | none => do
    let n ← createNode dk parent c.leaves.length
    .ok (c.roots ++ [n])

/-- Appends the child to the parent's children and, if it is a well, to `leaf_nodes_`.
Models: `WellCollection.cpp:57-61`. -/
def place (parent : String) (ch : Node) (rs : List Node) (leaves : List String) : M Coll :=
  match pushIn parent ch rs with
  | some rs' => .ok ⟨rs', if ch.isLeaf then leaves ++ [ch.name] else leaves⟩
  | none => .error .ub

/-- A root becomes a child: it is taken out of the roots; if the parent is below it, the tree is lost.
Models: `WellCollection.cpp:37-63`. -/
def moveRoot (parent : String) (k : Nat) (rs : List Node) (leaves : List String) : M Coll := do
  castGroup parent rs
  let r ← rd rs k
  if (findNode parent (rs.take k)).isNone ∧ (r.findGroup parent).isSome then .ok ⟨rs.eraseIdx k, leaves⟩
  else place parent r (rs.eraseIdx k) leaves

/-- `addChild(child_name, parent_name, deck)`.  Models: `WellCollection.cpp:26-64`. -/
def addChild (dk : FieldDeck) (c : Coll) (e : String × String) : M Coll := do
  let rs ← withParent dk e.2 c
  match rs.findIdx? (fun r => r.name = e.1) with
  | some k => moveRoot e.2 k rs c.leaves
  | none => do
    let n ← createNode dk e.1 c.leaves.length
    castGroup e.2 rs
    place e.2 n rs c.leaves

/-- `tree[child] = parent` for a map sorted by its keys.  Models: `SpecialEclipseFields.hpp:303`. -/
def putEdge (e : String × String) : List (String × String) → List (String × String)
  | [] => [e]
  | x :: xs => if e.1 = x.1 then e :: xs else if e.1 < x.1 then e :: x :: xs else x :: putEdge e xs

/-- The map `GRUPTREE::tree`.  Models: `SpecialEclipseFields.hpp:296-312`. -/
def treeMap (ls : List (String × String)) : List (String × String) := ls.foldl (fun m e => putEdge e m) []

/-- The calls of `addChild`, in order.  Models: `WellsManager.cpp:753-765`. -/
def calls (dk : FieldDeck) (specs : List WelspecsLine) : List (String × String) :=
  treeMap (dk.gruptree.getD []) ++ specs.map (fun l => (l.name, l.group))

/-- The hierarchy.  Models: `WellsManager.cpp:753-765`. -/
def buildTree (dk : FieldDeck) (specs : List WelspecsLine) : M Coll := (calls dk specs).foldlM (addChild dk) ⟨[], []⟩

/-! ### Guide rates -/

mutual
/-- Changes the specifications of the well with the given number. -/
def _root_.Opm.Groups.Node.respec (i : Nat) (f : ProdSpec × InjSpec → ProdSpec × InjSpec) : Node → Node
  | .group n p q cs => .group n p q (respecAll i f cs)
  | .well n p q s g => if s = i then .well n (f (p, q)).1 (f (p, q)).2 s g else .well n p q s g
/-- The same for a list of trees. -/
def respecAll (i : Nat) (f : ProdSpec × InjSpec → ProdSpec × InjSpec) : List Node → List Node
  | [] => []
  | c :: cs => c.respec i f :: respecAll i f cs
end

/-- A record of `WGRUPCON`; for a name that is not a well, `operator[]` of the map gives well 0.
Models: `WellsManager.cpp:776-798`. -/
def wgrupconStep (b : Built) (leaves : List String) (rs : List Node) (l : WgrupconLine) : M (List Node) := do
  let wix := (b.index.lookup l.well).getD 0
  let nm ← rd leaves wix
  check (decide (nm = l.well))
  let d ← rd b.data wix
  match d.type with
  | some .producer => if l.phase = "OIL" then .ok (respecAll wix (fun x => ({ x.1 with guideRate := l.guideRate }, x.2)) rs) else .error .thrown
  | some .injector => if l.phase = "RAT" then .ok (respecAll wix (fun x => (x.1, { x.2 with guideRate := l.guideRate })) rs) else .error .thrown
  | none => .error .ub

/-- The records of `WGRUPCON`.  Models: `WellsManager.cpp:769-800`. -/
def readWgrupcon (b : Built) (leaves : List String) (ls : List WgrupconLine) (rs : List Node) : M (List Node) :=
  ls.foldlM (wgrupconStep b leaves) rs

/-- The end of the constructor: hierarchy, guide rates and group controls.  Models: `WellsManager.cpp:753-802`. -/
def addGroups (J : Junk) (dk : FieldDeck) (specs : List WelspecsLine) (b : Built) : M (List Node × W) := do
  let c ← buildTree dk specs
  let rs ← readWgrupcon b c.leaves (dk.wgrupcon.getD []) c.roots
  applyGroupControls J b.pu rs b.wells

/-- The whole constructor: the groups and the wells; `none` if the deck has no wells.
Models: `WellsManager.cpp:236-803`. -/
def wellsManager (J : Junk) (pm : Peaceman) (g : Grid) (perm : List Rat) (dk : FieldDeck) : M (Option (List Node × W)) := do
  let b ← wellsFromDeck J pm g perm dk.base
  match b, dk.base.welspecs with
  | some b, some specs => do
    let r ← addGroups J dk specs b
    .ok (some r)
  | _, _ => .ok none

end Opm.Manager
