import Verif.Model.WellsManager
import Verif.Spec.Wells
import Mathlib.Data.List.Forall2
/-!
# What the keywords of a deck say about its wells

`WellOk` lists everything a deck says about one well; `Acceptable` lists what a deck must satisfy to be read.
-/

namespace Opm.Manager
open Opm Wells Groups

/-- Distinct elements in the order of their first appearance. -/
def firstNames (ns : List String) : List String := ns.foldl (fun acc n => if n ∈ acc then acc else acc ++ [n]) []

/-- The wells a deck declares. -/
def declared (specs : List WelspecsLine) : List String := firstNames (specs.map WelspecsLine.name)

/-- The last record about the well `n`. -/
def lastSpec (specs : List WelspecsLine) (n : String) : Option WelspecsLine := specs.reverse.find? (fun l => l.name = n)

/-- The part of a name before the first `*`. -/
def beforeStar (p : String) : List Char := p.toList.takeWhile (· ≠ '*')

/-- A name template concerns a well: equal names, or, if there is a `*`, the part before it begins the name. -/
def Matches (pattern name : String) : Prop := if '*' ∈ pattern.toList then beforeStar pattern <+: name.toList else name = pattern

instance (p n : String) : Decidable (Matches p n) := by unfold Matches; infer_instance

/-- The phases in use, in the order in which they are stored. -/
def phaseList (water oil gas : Bool) : List Phase :=
  (if water then [Phase.aqua] else []) ++ (if oil then [Phase.liquid] else []) ++ (if gas then [Phase.vapour] else [])

/-- The phases a deck uses. -/
def activePhases (dk : Deck) : List Phase := phaseList dk.water dk.oil dk.gas

/-! ### Perforations -/

/-- The number of a cell in the full Cartesian grid. -/
def Grid.cart (g : Grid) (c : Nat) : Option Int :=
  match g.globalCell with
  | some gc => gc[c]?
  | none => some c

/-- An index counted from one, with a default for values that are not positive; the result counts from zero. -/
def fromOne (i dflt : Int) : Int := if i ≤ 0 then dflt else i - 1

/-- The layers of a record, counted from zero. -/
def layers (g : Grid) (l : CompdatLine) : List Int :=
  (List.range (fromOne l.K2 (g.cartdims.2.2 - 1) - fromOne l.K1 0 + 1).toNat).map (fun k : Nat => fromOne l.K1 0 + k)

/-- The Cartesian numbers of the cells a record asks for; missing I and J come from the record of `WELSPECS`. -/
def askedCells (g : Grid) (spec : WelspecsLine) (l : CompdatLine) : List Int :=
  (layers g l).map (fun k => fromOne l.I (spec.I - 1) + g.cartdims.1 * (fromOne l.J (spec.J - 1) + g.cartdims.2.1 * k))

/-- All perforations asked for in well `n`, in deck order: the records whose first matching well is `n`. -/
def asked (g : Grid) (specs : List WelspecsLine) (comp : List CompdatLine) (n : String) : List (CompdatLine × Int) :=
  (comp.filter (fun l => (declared specs).find? (fun m => Matches l.well m) = some n)).flatMap (fun l =>
    match lastSpec specs n with
    | some spec => (askedCells g spec l).map (fun c => (l, c))
    | none => [])

/-- The largest difference of coordinate `c` between centroids of faces of cell `m`. -/
def Extent (g : Grid) (m c : Nat) (d : Rat) : Prop :=
  ∃ (p q : Nat) (xs : List Rat), g.facepos[m]? = some p ∧ g.facepos[m + 1]? = some q ∧ xs.length = q - p ∧
    (∀ (k : Nat) (x : Rat), xs[k]? = some x → ∃ f : Nat, g.faces[p + k]? = some (f : Int) ∧ g.faceCentroids[3 * f + c]? = some x) ∧
    ∃ lo hi, lo ∈ xs ∧ hi ∈ xs ∧ (∀ x ∈ xs, lo ≤ x ∧ x ≤ hi) ∧ d = hi - lo

/-- The connection factor of a perforation of cell `m`: the given one, or that of the well model. -/
def ConnectionOk (pm : Peaceman) (g : Grid) (perm : List Rat) (l : CompdatLine) (m : Nat) (wi : Rat) : Prop :=
  if 0 < l.trans then wi = l.trans
  else ∃ dx dy dz kx ky, Extent g m 0 dx ∧ Extent g m 1 dy ∧ Extent g m 2 dz ∧ perm[9 * m]? = some kx ∧ perm[9 * m + 4]? = some ky ∧
    pm (if l.diameter ≤ 0 then 1524 / 10000 else l.diameter / 2) (dx, dy, dz) kx ky l.skin = .ok wi

/-- A perforation (cell and connection factor) is the one asked for: it is in the first active cell with the asked
Cartesian number. -/
def PerforationOk (pm : Peaceman) (g : Grid) (perm : List Rat) (ask : CompdatLine × Int) (p : Int × Rat) : Prop :=
  ∃ m : Nat, p.1 = m ∧ m < g.ncells ∧ g.cart m = some ask.2 ∧ (∀ m' < m, g.cart m' ≠ some ask.2) ∧ ConnectionOk pm g perm ask.1 m p.2

/-- The reference depth: the given one; if defaulted the smallest depth of a perforated cell (`1e100` without any). -/
def DepthOk (g : Grid) (l : WelspecsLine) (cells : List Int) (z : Rat) : Prop :=
  if 0 ≤ l.datumDepth then z = l.datumDepth
  else z ≤ 10 ^ 100 ∧ (∀ c ∈ cells, ∃ (m : Nat) (x : Rat), c = m ∧ g.cellCentroids[3 * m + 2]? = some x ∧ z ≤ x) ∧
    (z = 10 ^ 100 ∨ ∃ (m : Nat), (m : Int) ∈ cells ∧ g.cellCentroids[3 * m + 2]? = some z)

/-! ### Controls -/

/-- A limit of a well: the control mode it belongs to, its kind, its value, and the weights of the phases. -/
structure Limit where
  mode : String
  type : CtrlType
  target : Rat
  weights : Option (List Rat)
  deriving DecidableEq, Repr

/-- Weight one for the given phases. -/
def weightsOf (ph ps : List Phase) : List Rat := ph.map (fun p => if p ∈ ps then 1 else 0)

/-- The limits a record of `WCONPROD` gives; production rates are negative. -/
def prodLimits (ph : List Phase) (l : WconprodLine) : List Limit :=
  (if 0 ≤ l.oilMax then [⟨"ORAT", .surfaceRate, -l.oilMax, some (weightsOf ph [.liquid])⟩] else []) ++
  (if 0 ≤ l.waterMax then [⟨"WRAT", .surfaceRate, -l.waterMax, some (weightsOf ph [.aqua])⟩] else []) ++
  (if 0 ≤ l.gasMax then [⟨"GRAT", .surfaceRate, -l.gasMax, some (weightsOf ph [.vapour])⟩] else []) ++
  (if 0 ≤ l.liquidMax then [⟨"LRAT", .surfaceRate, -l.liquidMax, some (weightsOf ph [.aqua, .liquid])⟩] else []) ++
  (if 0 ≤ l.reservoirMax then [⟨"RESV", .reservoirRate, -l.reservoirMax, some (weightsOf ph [.aqua, .liquid, .vapour])⟩] else []) ++
  (if 0 < l.bhp then [⟨"BHP", .bhp, l.bhp, none⟩] else [])

/-- The limits a record of `WCONINJE` gives. -/
def injLimits (ph : List Phase) (l : WconinjeLine) : List Limit :=
  (if 0 ≤ l.surfaceMax then [⟨"RATE", .surfaceRate, l.surfaceMax, some (weightsOf ph [.aqua, .liquid, .vapour])⟩] else []) ++
  (if 0 ≤ l.reservoirMax then [⟨"RESV", .reservoirRate, l.reservoirMax, some (weightsOf ph [.aqua, .liquid, .vapour])⟩] else []) ++
  (if 0 < l.bhp then [⟨"BHP", .bhp, l.bhp, none⟩] else [])

/-- A control of a well is the given limit; the weights of a pressure control have no meaning. -/
def IsLimit (L : Limit) (c : CtrlType × Rat × List Rat) : Prop := c.1 = L.type ∧ c.2.1 = L.target ∧ ∀ w, L.weights = some w → c.2.2 = w

/-- The last record concerning the well `n`. -/
def IsLast {α : Type} (well : α → String) (ls : List α) (n : String) (l : α) : Prop :=
  ∃ pre post, ls = pre ++ l :: post ∧ Matches (well l) n ∧ ∀ x ∈ post, ¬ Matches (well x) n

/-- The last record of `WELOPEN` about a well. -/
def lastFlag (dk : Deck) (n : String) : Option String := (((dk.welopen.getD []).filter (fun l => l.1 = n)).getLast?).map Prod.snd

/-- The well operates under the control of the mode `mode`; a shut well remembers it as the complement.  Wells under
group control (mode `GRUP`) have no such control: their number is -1, and 0 once complemented. -/
def OperatesOn (dk : Deck) (n : String) (lims : List Limit) (mode openShut : String) (cur : Int) : Prop :=
  (∃ (k : Nat) (L : Limit), lims[k]? = some L ∧ L.mode = mode ∧ cur = if (lastFlag dk n).getD openShut = "SHUT" then -(k : Int) - 1 else k) ∨
  (mode = "GRUP" ∧ lastFlag dk n = none ∧ cur = if openShut = "SHUT" then 0 else -1) ∨
  (mode = "GRUP" ∧ ∃ f, lastFlag dk n = some f ∧ cur = if f = "SHUT" then -1 else 0)

/-- The phase an injector injects, from the first letter of its type. -/
def injectedPhase (t : String) : Option Phase :=
  match t.toList.head? with
  | some 'W' => some .aqua
  | some 'O' => some .liquid
  | some 'G' => some .vapour
  | _ => none

/-- Everything a deck says about the well `n`. -/
structure WellOk (pm : Peaceman) (g : Grid) (perm : List Rat) (dk : Deck) (specs : List WelspecsLine) (comp : List CompdatLine) (n : String) (o : Obs) : Prop where
  name : o.name = some n
  depth : ∃ l, lastSpec specs n = some l ∧ DepthOk g l o.cells o.depth
  wi : o.wi.length = o.cells.length
  perfs : List.Forall₂ (PerforationOk pm g perm) (asked g specs comp n) (o.cells.zip o.wi)
  control :
    (o.type = .injector ∧ n ∉ (dk.wconprod.getD []).map WconprodLine.well ∧ ∃ l, IsLast WconinjeLine.well (dk.wconinje.getD []) n l ∧
      List.Forall₂ IsLimit (injLimits (activePhases dk) l) o.controls ∧
      OperatesOn dk n (injLimits (activePhases dk) l) l.controlMode l.openShut o.current ∧
      o.comp = (activePhases dk).map (fun p => if injectedPhase l.injectorType = some p then 1 else 0)) ∨
    (o.type = .producer ∧ ∃ l, IsLast WconprodLine.well (dk.wconprod.getD []) n l ∧
      List.Forall₂ IsLimit (prodLimits (activePhases dk) l) o.controls ∧
      OperatesOn dk n (prodLimits (activePhases dk) l) l.controlMode l.openShut o.current ∧
      o.comp = (activePhases dk).map (fun _ => 0))

/-! ### Acceptable decks -/

/-- The mode of a record can be chosen: there is a limit for it, or it is `GRUP` (a shut well under group control needs
some limit). -/
def ModeOk (lims : List Limit) (mode openShut : String) : Prop :=
  mode ∈ lims.map Limit.mode ∨ (mode = "GRUP" ∧ (openShut = "SHUT" → lims ≠ []))

/-- A record of `WCONINJE` can be handled. -/
structure InjOk (ph : List Phase) (l : WconinjeLine) : Prop where
  thp : l.thp ≤ 0
  mode : ModeOk (injLimits ph l) l.controlMode l.openShut
  phase : ∀ p, injectedPhase l.injectorType = some p → p ∈ ph

/-- A record of `WCONPROD` can be handled. -/
structure ProdOk (ph : List Phase) (l : WconprodLine) : Prop where
  thp : l.thp ≤ 0
  mode : ModeOk (prodLimits ph l) l.controlMode l.openShut
  oil : 0 ≤ l.oilMax → .liquid ∈ ph
  water : 0 ≤ l.waterMax → .aqua ∈ ph
  gas : 0 ≤ l.gasMax → .vapour ∈ ph
  liquid : 0 ≤ l.liquidMax → .aqua ∈ ph ∧ .liquid ∈ ph

/-- The arrays of the grid are long enough. -/
structure Grid.WellFormed (g : Grid) : Prop where
  cells : ∀ gc, g.globalCell = some gc → g.ncells ≤ gc.length
  depths : ∀ c < g.ncells, 3 * c + 2 < g.cellCentroids.length

/-- A deck that can be read. -/
structure Acceptable (pm : Peaceman) (g : Grid) (perm : List Rat) (dk : Deck) (specs : List WelspecsLine) (comp : List CompdatLine) : Prop where
  dims : g.dimensions = 3
  phases : 2 ≤ (activePhases dk).length ∧ .liquid ∈ activePhases dk
  keywords : dk.wconinje ≠ none ∨ dk.wconprod ≠ none
  weltarg : dk.weltarg = false
  named : ∀ l ∈ comp, ∃ n ∈ declared specs, Matches l.well n
  perfs : ∀ n ∈ declared specs, ∀ a ∈ asked g specs comp n, ∃ p, PerforationOk pm g perm a p
  injNames : ∀ l ∈ dk.wconinje.getD [], l.well ∈ declared specs
  prodNames : ∀ l ∈ dk.wconprod.getD [], l.well ∈ declared specs
  typed : ∀ n ∈ declared specs, n ∈ (dk.wconinje.getD []).map WconinjeLine.well ∨ n ∈ (dk.wconprod.getD []).map WconprodLine.well
  injLines : ∀ l ∈ dk.wconinje.getD [], InjOk (activePhases dk) l ∧ ∀ n ∈ declared specs, Matches l.well n → n ∉ (dk.wconprod.getD []).map WconprodLine.well
  prodLines : ∀ l ∈ dk.wconprod.getD [], ProdOk (activePhases dk) l ∧ ∀ n ∈ declared specs, Matches l.well n → n ∈ (dk.wconprod.getD []).map WconprodLine.well
  opens : ∀ l ∈ dk.welopen.getD [], l.1 ∈ declared specs ∧ (l.2 = "SHUT" ∨ l.2 = "OPEN")

end Opm.Manager
