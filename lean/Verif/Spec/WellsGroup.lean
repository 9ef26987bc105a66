import Verif.Model.WellsGroup
import Verif.Spec.Wells
/-!
# Specification of well groups: a tree seen as the list of its wells

Nothing here refers to the recursive functions of the model.
-/

namespace Opm.Groups
open Opm Wells

/-- A well of the tree: its specifications, its number in the `Wells` structure and the index of its group control. -/
structure Leaf where
  prod : ProdSpec
  inj : InjSpec
  self : Int
  gci : Int
  deriving DecidableEq, Repr

mutual
/-- The wells below a node, from left to right. -/
def Node.leaves : Node → List Leaf
  | .group _ _ _ cs => leavesAll cs
  | .well _ p i self gci => [⟨p, i, self, gci⟩]
def leavesAll : List Node → List Leaf
  | [] => []
  | c :: cs => c.leaves ++ leavesAll cs
end

mutual
/-- The groups of a tree: specifications and wells of each. -/
def Node.groups : Node → List (ProdSpec × InjSpec × List Leaf)
  | .group _ p i cs => (p, i, leavesAll cs) :: groupsAll cs
  | .well _ _ _ _ _ => []
def groupsAll : List Node → List (ProdSpec × InjSpec × List Leaf)
  | [] => []
  | c :: cs => c.groups ++ groupsAll cs
end

/-- What does not change when group control indices are set. -/
def Leaf.fixed (l : Leaf) : ProdSpec × InjSpec × Int := (l.prod, l.inj, l.self)

/-- The wells of a tree are different wells of the structure, and group control indices refer to existing controls
(or are negative). -/
structure Placed (ws : List Well) (ls : List Leaf) : Prop where
  nodup : (ls.map (·.self)).Nodup
  exist : ∀ l ∈ ls, ∃ i : Nat, l.self = i ∧ ∃ w, ws[i]? = some w ∧ l.gci < w.controls.length

/-- Total production guide rate. -/
def prodTotal (ls : List Leaf) : Rat := (ls.map (fun l => l.prod.guideRate)).sum

/-- Total injection guide rate. -/
def injTotal (ls : List Leaf) : Rat := (ls.map (fun l => l.inj.guideRate)).sum

/-- Guide rates are not negative, and only producers have a production guide rate (as `createWellsGroup` sets them). -/
def ProdGuided (ws : List Well) (ls : List Leaf) : Prop :=
  ∀ l ∈ ls, 0 ≤ l.prod.guideRate ∧ ∀ w, ws[l.self.toNat]? = some w → w.type = .injector → l.prod.guideRate = 0

/-- Guide rates are not negative, and only injectors have an injection guide rate. -/
def InjGuided (ws : List Well) (ls : List Leaf) : Prop :=
  ∀ l ∈ ls, 0 ≤ l.inj.guideRate ∧ ∀ w, ws[l.self.toNat]? = some w → w.type = .producer → l.inj.guideRate = 0

/-- A client sees that the current control of well `i` is the given one. -/
def UnderControl (s : W) (i : Int) (t : CtrlType) (target : Rat) (distr : List Rat) : Prop :=
  ∃ o, getWell s i.toNat = .ok o ∧ ∃ k : Nat, o.current = k ∧ o.controls[k]? = some (t, target, distr)

/-- A client sees no difference in well `i`. -/
def Unchanged (s s' : W) (i : Int) : Prop := getWell s' i.toNat = getWell s i.toNat

/-- The phases whose rates a production mode adds up. -/
def ProdMode.phases : ProdMode → List Phase
  | .orat => [.liquid]
  | .wrat => [.aqua]
  | .grat => [.vapour]
  | .lrat => [.liquid, .aqua]
  | .resv => [.aqua, .liquid, .vapour]
  | _ => []

/-- The phases of the mode are present (every reservoir rate is defined). -/
def ProdMode.Available (pu : PhaseUsage) (m : ProdMode) : Prop := m = .resv ∨ ∀ p ∈ m.phases, pu.used p = true

/-- The modes that constrain a rate. -/
def ProdMode.isRate (m : ProdMode) : Prop := m = .orat ∨ m = .wrat ∨ m = .grat ∨ m = .lrat ∨ m = .resv

/-- Surface or reservoir rates. -/
def ProdMode.ctrlType : ProdMode → CtrlType
  | .resv => .reservoirRate
  | _ => .surfaceRate

/-- Phase weights of a production mode: one for the positions of its phases, zero for the others. -/
def weights (pu : PhaseUsage) (m : ProdMode) : List Rat :=
  (List.range pu.num).map (fun k => if ∃ p ∈ m.phases, pu.used p ∧ pu.pos p = k then 1 else 0)

/-- The modes that constrain an injection rate. -/
def InjMode.ctrlType : InjMode → CtrlType
  | .resv => .reservoirRate
  | _ => .surfaceRate

/-- The group control modes that `applyProdGroupControls` distributes. -/
def ProdMode.isTarget (m : ProdMode) : Prop := m = .orat ∨ m = .wrat ∨ m = .lrat ∨ m = .resv

instance (m : ProdMode) : Decidable m.isTarget := inferInstanceAs (Decidable (_ ∨ _))

/-- The group control modes that `applyInjGroupControls` distributes. -/
def InjMode.isTarget (m : InjMode) : Prop := m = .rate ∨ m = .resv

instance (m : InjMode) : Decidable m.isTarget := inferInstanceAs (Decidable (_ ∨ _))

mutual
/-- The topmost groups that have their own production target, with their children. -/
def Node.prodTops : Node → List (ProdSpec × List Node)
  | .group _ p _ cs => if p.mode.isTarget then [(p, cs)] else prodTopsAll cs
  | .well _ _ _ _ _ => []
def prodTopsAll : List Node → List (ProdSpec × List Node)
  | [] => []
  | c :: cs => c.prodTops ++ prodTopsAll cs
end

mutual
/-- The groups above these only pass the call on. -/
def Node.prodPasses : Node → Prop
  | .group _ p _ cs => p.mode.isTarget ∨ ((p.mode = .fld ∨ p.mode = .none) ∧ prodPassesAll cs)
  | .well _ _ _ _ _ => True
def prodPassesAll : List Node → Prop
  | [] => True
  | c :: cs => c.prodPasses ∧ prodPassesAll cs
end

mutual
/-- The topmost groups that have their own injection target, with their children. -/
def Node.injTops : Node → List (InjSpec × List Node)
  | .group _ _ i cs => if i.mode.isTarget then [(i, cs)] else injTopsAll cs
  | .well _ _ _ _ _ => []
def injTopsAll : List Node → List (InjSpec × List Node)
  | [] => []
  | c :: cs => c.injTops ++ injTopsAll cs
end

mutual
/-- The groups above these only pass the call on. -/
def Node.injPasses : Node → Prop
  | .group _ _ i cs => i.mode.isTarget ∨ ((i.mode = .fld ∨ i.mode = .none) ∧ injPassesAll cs)
  | .well _ _ _ _ _ => True
def injPassesAll : List Node → Prop
  | [] => True
  | c :: cs => c.injPasses ∧ injPassesAll cs
end

/-- A production target can be shared among the wells below the given nodes: some well has a guide rate, all wells with a guide rate are under group
control, and no subgroup has its own control. -/
structure ProdSharable (cs : List Node) : Prop where
  some : prodTotal (leavesAll cs) ≠ 0
  wells : ∀ l ∈ leavesAll cs, l.prod.mode = .grup ∨ l.prod.guideRate = 0
  groups : ∀ g ∈ groupsAll cs, g.1.mode = .fld ∨ g.1.mode = .none

/-- An injection target can be shared among the wells below the given nodes. -/
structure InjSharable (cs : List Node) : Prop where
  some : injTotal (leavesAll cs) ≠ 0
  wells : ∀ l ∈ leavesAll cs, l.inj.mode = .grup ∨ l.inj.guideRate = 0
  groups : ∀ g ∈ groupsAll cs, g.2.1.mode = .fld ∨ g.2.1.mode = .none

/-- A phase usage as `phaseUsageFromDeck` makes it: between two and three phases; the used phases are numbered in order. -/
structure PhaseUsage.Valid (pu : PhaseUsage) : Prop where
  two : 2 ≤ pu.num
  three : pu.num ≤ 3
  oil : pu.used .liquid = true
  pos : ∀ p, pu.pos p = (([Phase.aqua, .liquid, .vapour].takeWhile (· ≠ p)).filter pu.used).length
  num : pu.num = ([Phase.aqua, .liquid, .vapour].filter pu.used).length

/-! ### Constraints -/

/-- The rate of phase position `k` of well `i`. -/
def rateAt (np : Nat) (rates : List Rat) (i : Int) (k : Nat) : Rat := rates.getD (np * i.toNat + k) 0

/-- The rate of a well under the given weights. -/
def weighted (np : Nat) (d : List Rat) (rates : List Rat) (i : Int) : Rat :=
  ((List.range np).map (fun k => d.getD k 0 * rateAt np rates i k)).sum

/-- A well honours the constraint `(t, target, d)`. -/
def Honours (np : Nat) (bhp res surf : List Rat) (ty : WellType) (i : Int) (x : CtrlType × Rat × List Rat) : Prop :=
  match x.1 with
  | .bhp => match ty with
    | .producer => x.2.1 ≤ bhp.getD i.toNat 0
    | .injector => bhp.getD i.toNat 0 ≤ x.2.1
  | .reservoirRate => |weighted np x.2.2 res i| - |x.2.1| ≤ max |weighted np x.2.2 res i| |x.2.1| * (1 / 1000000)
  | .surfaceRate => |weighted np x.2.2 surf i| ≤ |x.2.1|

/-- A well honours all its constraints except the active one and the one that comes from its group. -/
def WellOk (np : Nat) (bhp res surf : List Rat) (o : Obs) (l : Leaf) : Prop :=
  ∀ (k : Nat) x, o.controls[k]? = some x → (k : Int) ≠ o.current → (k : Int) ≠ l.gci → Honours np bhp res surf o.type l.self x

/-- The rate of phase position `k` summed over the wells of one type. -/
def groupRate (np : Nat) (rates : List Rat) (types : Int → WellType) (ty : WellType) (ls : List Leaf) (k : Nat) : Rat :=
  ((ls.filter (fun l => types l.self = ty)).map (fun l => rateAt np rates l.self k)).sum

/-- The rate of a group, all phases. -/
def groupTotal (np : Nat) (rates : List Rat) (types : Int → WellType) (ty : WellType) (ls : List Leaf) : Rat :=
  ((List.range np).map (groupRate np rates types ty ls)).sum

/-- The production rate of a group in a mode. -/
def groupProd (pu : PhaseUsage) (res surf : List Rat) (types : Int → WellType) (ls : List Leaf) (m : ProdMode) : Rat :=
  if m = .resv then groupTotal pu.num res types .producer ls
  else ((m.phases.filter pu.used).map (fun p => groupRate pu.num surf types .producer ls (pu.pos p))).sum

/-- The limit of a production mode. -/
def ProdSpec.limit (p : ProdSpec) : ProdMode → Rat
  | .orat => p.oilMax
  | .wrat => p.waterMax
  | .grat => p.gasMax
  | .lrat => p.liquidMax
  | .resv => p.reservoirMax
  | _ => -1

/-- The limit of the injection mode of a group. -/
def InjSpec.limit (i : InjSpec) : Rat := if i.mode = .resv then i.reservoirMax else i.surfaceMax

/-- The kind of rate a reinjecting group prescribes: surface rates for reinjection, reservoir rates for voidage replacement. -/
def InjMode.ctrlType' : InjMode → CtrlType
  | .vrep => .reservoirRate
  | _ => .surfaceRate

/-- The phase in which an injected fluid flows. -/
def InjectorType.fluid (t : InjectorType) : Phase := if t = .water then .aqua else if t = .oil then .liquid else .vapour

/-- What a reinjecting group has to inject: the given fraction of its production (production rates are negative), of the phase it injects
in the case of reinjection and of the reservoir volume in the case of voidage replacement. -/
def InjSpec.reinjected (i : InjSpec) (pu : PhaseUsage) (res surf : List Rat) (types : Int → WellType) (ls : List Leaf) : Rat :=
  if i.mode = .rein then i.reinjectionFraction * -groupRate pu.num surf types .producer ls (pu.pos i.injectorType.fluid)
  else i.voidageFraction * -groupTotal pu.num res types .producer ls

/-- Only rates of phases that are present have limits. -/
def ProdSpec.Sane (pu : PhaseUsage) (p : ProdSpec) : Prop := ∀ m : ProdMode, m.isRate → 0 ≤ p.limit m → m.Available pu

/-- A group honours its limits: negative limits do not count, nor does the limit under which the group operates. -/
structure GroupOk (pu : PhaseUsage) (res surf : List Rat) (types : Int → WellType) (g : ProdSpec × InjSpec × List Leaf) : Prop where
  surface : g.2.1.mode ≠ .rate → 0 ≤ g.2.1.surfaceMax → groupTotal pu.num surf types .injector g.2.2 ≤ g.2.1.surfaceMax
  reservoir : g.2.1.mode ≠ .resv → 0 ≤ g.2.1.reservoirMax → groupTotal pu.num res types .injector g.2.2 ≤ g.2.1.reservoirMax
  prod : ∀ m : ProdMode, m.isRate → g.1.mode ≠ m → 0 ≤ g.1.limit m → |groupProd pu res surf types g.2.2 m| ≤ g.1.limit m

end Opm.Groups
