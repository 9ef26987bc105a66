import Verif.Spec.WellsManager
import Verif.Spec.WellsGroup
import Verif.Model.WellTree
import Mathlib.Logic.Relation
/-!
# What a deck says about groups of wells

The group hierarchy, the targets of groups and the guide rates of wells, in terms of the records of the deck.  Nothing here refers to the functions that build
the hierarchy.
-/

namespace Opm.Manager
open Opm Wells Groups

/-- The last record about the given name. -/
def lastFor {α : Type} (key : α → String) (ls : List α) (n : String) : Option α := (ls.filter (fun l => key l = n)).getLast?

/-- `a` is a member of the group `b`: the last record of `GRUPTREE` about `a`, or a record of `WELSPECS`. -/
def Member (dk : FieldDeck) (specs : List WelspecsLine) (a b : String) : Prop :=
  lastFor Prod.fst (dk.gruptree.getD []) a = some (a, b) ∨ ∃ l ∈ specs, l.name = a ∧ l.group = b

/-- `a` belongs to the group `b`, directly or through other groups. -/
def Below (dk : FieldDeck) (specs : List WelspecsLine) : String → String → Prop := Relation.TransGen (Member dk specs)

/-- The keyword of a production mode. -/
def _root_.Opm.Groups.ProdMode.keyword : ProdMode → String
  | .none => "NONE" | .orat => "ORAT" | .wrat => "WRAT" | .grat => "GRAT" | .lrat => "LRAT" | .crat => "CRAT" | .resv => "RESV" | .prbl => "PRBL"
  | .bhp => "BHP" | .thp => "THP" | .grup => "GRUP" | .fld => "FLD"

/-- The keyword of an injection mode. -/
def _root_.Opm.Groups.InjMode.keyword : InjMode → String
  | .none => "NONE" | .rate => "RATE" | .resv => "RESV" | .bhp => "BHP" | .thp => "THP" | .rein => "REIN" | .vrep => "VREP" | .grup => "GRUP" | .fld => "FLD"

/-- Well `n` is a producer. -/
def Produces (dk : FieldDeck) (specs : List WelspecsLine) (n : String) : Prop :=
  n ∈ specs.map WelspecsLine.name ∧ n ∈ (dk.base.wconprod.getD []).map WconprodLine.well

/-- Well `n` is an injector. -/
def Injects (dk : FieldDeck) (specs : List WelspecsLine) (n : String) : Prop :=
  n ∈ specs.map WelspecsLine.name ∧ n ∈ (dk.base.wconinje.getD []).map WconinjeLine.well

instance (dk : FieldDeck) (specs : List WelspecsLine) (n : String) : Decidable (Produces dk specs n) := inferInstanceAs (Decidable (_ ∧ _))

instance (dk : FieldDeck) (specs : List WelspecsLine) (n : String) : Decidable (Injects dk specs n) := inferInstanceAs (Decidable (_ ∧ _))

/-- The guide rate of a well: the last record of `WGRUPCON`, one without a record. -/
def guideRate (dk : FieldDeck) (n : String) : Rat :=
  match lastFor WgrupconLine.well (dk.wgrupcon.getD []) n with
  | some l => l.guideRate
  | none => 1

/-- The limit of a record of `GCONPROD` for a mode. -/
def GconprodLine.limit (l : GconprodLine) : ProdMode → Rat
  | .orat => l.oilMax
  | .wrat => l.waterMax
  | .grat => l.gasMax
  | .lrat => l.liquidMax
  | .resv => l.reservoirMax
  | _ => -1

/-- The limit of a record of `GCONINJE` for a mode. -/
def GconinjeLine.limit (l : GconinjeLine) : InjMode → Rat
  | .resv => l.reservoirMax
  | _ => l.surfaceMax

/-- Group `G` has the production target of the record `l`, in mode `m`. -/
structure ProdTarget (dk : FieldDeck) (specs : List WelspecsLine) (G : String) (l : GconprodLine) (m : ProdMode) : Prop where
  group : ∃ a, Member dk specs a G ∨ Member dk specs G a
  record : lastFor GconprodLine.group (dk.gconprod.getD []) G = some l
  mode : l.controlMode = m.keyword
  target : m.isTarget

/-- Group `G` has the injection target of the record `l`, in mode `m`. -/
structure InjTarget (dk : FieldDeck) (specs : List WelspecsLine) (G : String) (l : GconinjeLine) (m : InjMode) : Prop where
  group : ∃ a, Member dk specs a G ∨ Member dk specs G a
  record : lastFor GconinjeLine.group (dk.gconinje.getD []) G = some l
  mode : l.controlMode = m.keyword
  target : m.isTarget

/-- Injected fluids that are known. -/
def FluidOk (t : String) : Prop := injectedPhase t ≠ none

/-- A group hierarchy without surprises: wells have different names and are members of one group, groups are not wells, and no group belongs to itself
(there are levels that grow from members to groups). -/
structure TreeOk (dk : FieldDeck) (specs : List WelspecsLine) : Prop where
  distinct : (specs.map WelspecsLine.name).Nodup
  once : ∀ l ∈ specs, ∀ e ∈ dk.gruptree.getD [], e.1 ≠ l.name
  parents : ∀ a b, Member dk specs a b → b ∉ specs.map WelspecsLine.name
  levels : ∃ level : String → Nat, ∀ a b, Member dk specs a b → level a < level b

/-- The records about groups can be read. -/
structure RecordsOk (dk : FieldDeck) (specs : List WelspecsLine) : Prop where
  fluids : ∀ l ∈ dk.base.wconinje.getD [], FluidOk l.injectorType
  inj : ∀ l ∈ dk.gconinje.getD [], FluidOk l.injectorType ∧ ∃ m : InjMode, l.controlMode = m.keyword
  prod : ∀ l ∈ dk.gconprod.getD [], (∃ m : ProdMode, l.controlMode = m.keyword) ∧ l.procedure ∈ ["NONE", "RATE", "WELL"]
  guide : ∀ l ∈ dk.wgrupcon.getD [], (Produces dk specs l.well ∧ l.phase = "OIL") ∨ (Injects dk specs l.well ∧ l.phase = "RAT")
  positive : ∀ l ∈ dk.wgrupcon.getD [], 0 ≤ l.guideRate

/-- The production targets can be shared: no group with a target belongs to another one; below each there is a producer with a guide rate, and all such
producers are under group control; other groups have no mode of their own. -/
structure ProdSharing (dk : FieldDeck) (specs : List WelspecsLine) : Prop where
  modes : ∀ l ∈ dk.gconprod.getD [], l.controlMode ∈ ["ORAT", "WRAT", "LRAT", "RESV", "FLD", "NONE"]
  nested : ∀ G H l l' m m', ProdTarget dk specs G l m → ProdTarget dk specs H l' m' → ¬Below dk specs G H
  guided : ∀ G l m, ProdTarget dk specs G l m → ∃ n, Produces dk specs n ∧ Below dk specs n G ∧ guideRate dk n ≠ 0
  wells : ∀ G l m, ProdTarget dk specs G l m → ∀ n, Produces dk specs n → Below dk specs n G → guideRate dk n ≠ 0 →
    ∃ r, lastFor WconprodLine.well (dk.base.wconprod.getD []) n = some r ∧ r.controlMode = "GRUP"
  phases : ∀ G l m, ProdTarget dk specs G l m → m = .wrat ∨ m = .lrat → dk.base.water = true

/-- The injection targets can be shared. -/
structure InjSharing (dk : FieldDeck) (specs : List WelspecsLine) : Prop where
  modes : ∀ l ∈ dk.gconinje.getD [], l.controlMode ∈ ["RATE", "RESV", "FLD", "NONE"]
  nested : ∀ G H l l' m m', InjTarget dk specs G l m → InjTarget dk specs H l' m' → ¬Below dk specs G H
  guided : ∀ G l m, InjTarget dk specs G l m → ∃ n, Injects dk specs n ∧ Below dk specs n G ∧ guideRate dk n ≠ 0
  wells : ∀ G l m, InjTarget dk specs G l m → ∀ n, Injects dk specs n → Below dk specs n G → guideRate dk n ≠ 0 →
    ∃ r, lastFor WconinjeLine.well (dk.base.wconinje.getD []) n = some r ∧ r.controlMode = "GRUP"

/-- The keyword of a procedure. -/
def _root_.Opm.Groups.Procedure.keyword : Procedure → String
  | .none => "NONE"
  | .rate => "RATE"
  | .well => "WELL"

/-- What the deck says about a group. -/
structure GroupSpec (dk : FieldDeck) (G : String) (p : ProdSpec) (i : InjSpec) : Prop where
  prodNone : lastFor GconprodLine.group (dk.gconprod.getD []) G = none → p.mode = .none
  prodSome : ∀ l, lastFor GconprodLine.group (dk.gconprod.getD []) G = some l → p.mode.keyword = l.controlMode ∧ ∀ m : ProdMode, p.limit m = l.limit m
  procedure : ∀ l, lastFor GconprodLine.group (dk.gconprod.getD []) G = some l → p.procedure.keyword = l.procedure
  injNone : lastFor GconinjeLine.group (dk.gconinje.getD []) G = none → i.mode = .none
  injSome : ∀ l, lastFor GconinjeLine.group (dk.gconinje.getD []) G = some l → i.mode.keyword = l.controlMode ∧ i.limit = l.limit i.mode
  injLimits : ∀ l, lastFor GconinjeLine.group (dk.gconinje.getD []) G = some l → injectedPhase l.injectorType = some i.injectorType.fluid ∧
    i.surfaceMax = l.surfaceMax ∧ i.reservoirMax = l.reservoirMax ∧ i.reinjectionFraction = l.reinjection ∧ i.voidageFraction = l.voidage

/-- What the deck says about a well, before guide rates. -/
structure WellSpec (dk : FieldDeck) (n : String) (p : ProdSpec) (i : InjSpec) : Prop where
  injNone : lastFor WconinjeLine.well (dk.base.wconinje.getD []) n = none → p.guideRate = 1 ∧ i.mode = .none
  injSome : ∀ l, lastFor WconinjeLine.well (dk.base.wconinje.getD []) n = some l → p.guideRate = 0 ∧ i.mode.keyword = l.controlMode
  injLimits : ∀ l, lastFor WconinjeLine.well (dk.base.wconinje.getD []) n = some l → injectedPhase l.injectorType = some i.injectorType.fluid ∧
    i.surfaceMax = l.surfaceMax ∧ i.reservoirMax = l.reservoirMax
  prodNone : lastFor WconprodLine.well (dk.base.wconprod.getD []) n = none → i.guideRate = 1 ∧ p.mode = .none
  prodSome : ∀ l, lastFor WconprodLine.well (dk.base.wconprod.getD []) n = some l → i.guideRate = 0 ∧ p.mode.keyword = l.controlMode
  prodLimits : ∀ l, lastFor WconprodLine.well (dk.base.wconprod.getD []) n = some l → p.oilMax = l.oilMax ∧ p.waterMax = l.waterMax ∧ p.reservoirMax = l.reservoirMax

end Opm.Manager
