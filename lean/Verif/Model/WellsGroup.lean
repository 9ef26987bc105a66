import Verif.Model.Wells
import Mathlib.Algebra.Order.Field.Rat
import Mathlib.Algebra.Order.AbsoluteValue.Basic
/-!
# Well groups

Models `opm/core/wells/WellsGroup.cpp` without the creation of nodes from a deck (`createWellsGroup`), the
forwarding functions of `opm/core/wells/WellCollection.cpp`, and `opm/core/props/phaseUsageFromDeck.hpp`.

The tree of groups and wells is an inductive type; a well refers to the `Wells` structure (modelled in
`Verif.Model.Wells`) by its number.  Simplifications: all nodes have the same phase usage (they get it from
the same deck); `setWellsPointer` has been called with one `Wells` structure; messages printed to the console
are left out; `DIRTY_WELLCTRL_HACK` is not defined.  `shut_well_` is set to `true` by the constructor and never
written, so the second branch of `shutWell` is dead.
-/

namespace Opm.Groups
open Opm Wells

/-- `BlackoilPhases::PhaseIndex`.  Models: `BlackoilPhases.hpp:33`. -/
inductive Phase where
  | aqua
  | liquid
  | vapour
  deriving DecidableEq, Repr

/-- `struct PhaseUsage`.  The arrays have one entry for each of the three phases.
Models: `BlackoilPhases.hpp:37-42`. -/
structure PhaseUsage where
  num : Nat
  used : Phase → Bool
  pos : Phase → Nat

/-- `phaseUsageFromDeck(deck)`; the arguments say whether the deck has the keywords `WATER`, `OIL`, `GAS`.
Models: `phaseUsageFromDeck.hpp:34-67`. -/
def phaseUsageFromDeck (water oil gas : Bool) : M PhaseUsage :=
  let used : Phase → Bool := fun p => match p with | .aqua => water | .liquid => oil | .vapour => gas
  let p1 := 0 + (used .aqua).toNat
  let p2 := p1 + (used .liquid).toNat
  let p3 := p2 + (used .vapour).toNat
  if p3 < 2 ∨ p3 > 3 then .error .thrown
  else if !used .liquid then .error .thrown
  else .ok ⟨p3, used, fun p => match p with | .aqua => 0 | .liquid => p1 | .vapour => p2⟩

/-- `ProductionSpecification::ControlMode`.  Models: `ProductionSpecification.hpp:12-15`. -/
inductive ProdMode where
  | none | orat | wrat | grat | lrat | crat | resv | prbl | bhp | thp | grup | fld
  deriving DecidableEq, Repr

/-- `ProductionSpecification::Procedure`.  Models: `ProductionSpecification.hpp:17-20`. -/
inductive Procedure where
  | none | rate | well
  deriving DecidableEq, Repr

/-- `InjectionSpecification::ControlMode`.  Models: `InjectionSpecification.hpp:12-15`. -/
inductive InjMode where
  | none | rate | resv | bhp | thp | rein | vrep | grup | fld
  deriving DecidableEq, Repr

/-- `InjectionSpecification::InjectorType`.  Models: `InjectionSpecification.hpp:17-20`. -/
inductive InjectorType where
  | water | oil | gas
  deriving DecidableEq, Repr

/-- `struct ProductionSpecification` with the defaults of its constructor (`BHP_limit_` and
`guide_rate_type_` are not used).  Models: `ProductionSpecification.hpp:27-39`, `ProductionSpecification.cpp:7-20`. -/
structure ProdSpec where
  mode : ProdMode := .none
  procedure : Procedure := .none
  oilMax : Rat := -10 ^ 100
  waterMax : Rat := -10 ^ 100
  gasMax : Rat := -10 ^ 100
  liquidMax : Rat := -10 ^ 100
  reservoirMax : Rat := -10 ^ 100
  guideRate : Rat := 1
  deriving DecidableEq, Repr

/-- `struct InjectionSpecification` with the defaults of its constructor.
Models: `InjectionSpecification.hpp:27-38`, `InjectionSpecification.cpp:7-19`. -/
structure InjSpec where
  injectorType : InjectorType := .water
  mode : InjMode := .none
  surfaceMax : Rat := -10 ^ 100
  reservoirMax : Rat := -10 ^ 100
  reinjectionFraction : Rat := 1
  voidageFraction : Rat := 1
  guideRate : Rat := 1
  deriving DecidableEq, Repr

/-- A `WellsGroup` or a `WellNode`.  `self` is `self_index_`, `gci` is `group_control_index_`.
Models: `WellsGroup.hpp:196-204`, `:272-273`, `:377-381`. -/
inductive Node where
  | group (name : String) (prod : ProdSpec) (inj : InjSpec) (children : List Node)
  | well (name : String) (prod : ProdSpec) (inj : InjSpec) (self gci : Int)

/-! ### Rates and targets -/

/-- Sum of the rates of all phases, from position `off` on.
Models: the loops of `WellsGroup.cpp:137-141`, `:164-168`. -/
def phaseSum (np : Nat) (rates : List Rat) (off : Int) : M Rat :=
  loop np (fun p s => do
    let r ← rdI rates (off + p)
    .ok (s + r)) 0

/-- `rateByMode(res_rates, surf_rates, mode)` for production; the pointers point to position `off` of the
arrays.  Models: `WellsGroup.cpp:121-146`. -/
def prodRate (pu : PhaseUsage) (res surf : List Rat) (off : Int) : ProdMode → M Rat
  | .orat => rdI surf (off + pu.pos .liquid)
  | .wrat => rdI surf (off + pu.pos .aqua)
  | .grat => rdI surf (off + pu.pos .vapour)
  | .lrat => do
    let a ← rdI surf (off + pu.pos .liquid)
    let b ← rdI surf (off + pu.pos .aqua)
    .ok (a + b)
  | .resv => phaseSum pu.num res off
  | _ => .error .thrown

/-- `rateByMode(res_rates, surf_rates, mode)` for injection.  Models: `WellsGroup.cpp:149-169`. -/
def injRate (pu : PhaseUsage) (res surf : List Rat) (off : Int) : InjMode → M Rat
  | .rate => phaseSum pu.num surf off
  | .resv => phaseSum pu.num res off
  | _ => .error .thrown

/-- `getTarget(mode)` for production.  Models: `WellsGroup.cpp:171-199`. -/
def prodTarget (p : ProdSpec) : ProdMode → M Rat
  | .grat => .ok p.gasMax
  | .wrat => .ok p.waterMax
  | .orat => .ok p.oilMax
  | .resv => .ok p.reservoirMax
  | .lrat => .ok p.liquidMax
  | _ => .error .thrown

/-- `getTarget(mode)` for injection.  Models: `WellsGroup.cpp:201-220`. -/
def injTarget (p : InjSpec) : InjMode → M Rat
  | .rate => .ok p.surfaceMax
  | .resv => .ok p.reservoirMax
  | _ => .error .thrown

mutual
/-- `productionGuideRate(only_group)`.  Models: `WellsGroup.cpp:512-519`, `:946-952`. -/
def Node.prodGuide (only : Bool) : Node → Rat
  | .group _ _ _ cs => prodGuides only cs
  | .well _ p _ _ _ => if !only ∨ p.mode = .grup then p.guideRate else 0
/-- Sum over the children (the order of the additions is immaterial in exact arithmetic). -/
def prodGuides (only : Bool) : List Node → Rat
  | [] => 0
  | c :: cs => c.prodGuide only + prodGuides only cs
end

mutual
/-- `injectionGuideRate(only_group)`.  Models: `WellsGroup.cpp:524-531`, `:957-963`. -/
def Node.injGuide (only : Bool) : Node → Rat
  | .group _ _ _ cs => injGuides only cs
  | .well _ _ i _ _ => if !only ∨ i.mode = .grup then i.guideRate else 0
/-- Sum over the children. -/
def injGuides (only : Bool) : List Node → Rat
  | [] => 0
  | c :: cs => c.injGuide only + injGuides only cs
end

/-! ### Group control of a well -/

/-- Makes the given constraint the control of well `self`: appended the first time, afterwards written over
the previous one.  Returns the new `group_control_index_`.
Models: `WellsGroup.cpp:805-817` and `:917-929`. -/
def setGroupControl (J : Junk) (t : CtrlType) (target : Rat) (distr : List Rat) (self gci : Int) (s : W) : M (Int × W) :=
  if gci < 0 then do
    let s ← appendWellControls J t target (some distr) self s
    let c ← rdI s.ctrls self
    let s ← setCurrentControl self ((c.num : Int) - 1) s
    .ok ((c.num : Int) - 1, s)
  else do
    let c ← rdI s.ctrls self
    let ty ← wrI c.type gci t
    let ta ← wrI c.target gci target
    let di ← memcpy c.distr (s.np * gci.toNat) distr s.np
    let cs ← wrI s.ctrls self { c with type := ty, target := ta, distr := di }
    let s ← setCurrentControl self gci { s with ctrls := cs }
    .ok (gci, s)

/-- Control type and phase distribution of a production mode.  Models: `WellsGroup.cpp:871-915`. -/
def prodControl (pu : PhaseUsage) : ProdMode → M (CtrlType × List Rat)
  | .orat =>
    if !pu.used .liquid then .error .thrown
    else do
      let d ← wr [0, 0, 0] (pu.pos .liquid) 1
      .ok (.surfaceRate, d)
  | .wrat =>
    if !pu.used .aqua then .error .thrown
    else do
      let d ← wr [0, 0, 0] (pu.pos .aqua) 1
      .ok (.surfaceRate, d)
  | .grat =>
    if !pu.used .vapour then .error .thrown
    else do
      let d ← wr [0, 0, 0] (pu.pos .vapour) 1
      .ok (.surfaceRate, d)
  | .lrat =>
    if !pu.used .liquid then .error .thrown
    else if !pu.used .aqua then .error .thrown
    else do
      let d ← wr [0, 0, 0] (pu.pos .liquid) 1
      let d ← wr d (pu.pos .aqua) 1
      .ok (.surfaceRate, d)
  | .resv => .ok (.reservoirRate, [1, 1, 1])
  | _ => .error .thrown

/-- Control type and phase distribution of an injection mode.  Models: `WellsGroup.cpp:792-803`. -/
def injControl : InjMode → M (CtrlType × List Rat)
  | .rate => .ok (.surfaceRate, [1, 1, 1])
  | .resv => .ok (.reservoirRate, [1, 1, 1])
  | _ => .error .thrown

/-- `WellNode::applyProdGroupControl` after the test of the control mode; returns `group_control_index_`.
Models: `WellsGroup.cpp:864-930`. -/
def wellApplyProd (J : Junk) (pu : PhaseUsage) (mode : ProdMode) (target : Rat) (self gci : Int) (s : W) : M (Int × W) := do
  let ty ← rdI s.type self
  if ty ≠ .producer then do
    check (decide (target = 0))
    .ok (gci, s)
  else do
    let r ← prodControl pu mode
    setGroupControl J r.1 (-target) r.2 self gci s

/-- `WellNode::applyInjGroupControl` after the test of the control mode; returns `group_control_index_`.
Models: `WellsGroup.cpp:787-818`. -/
def wellApplyInj (J : Junk) (mode : InjMode) (target : Rat) (self gci : Int) (s : W) : M (Int × W) := do
  let ty ← rdI s.type self
  if ty ≠ .injector then do
    check (decide (target = 0))
    .ok (gci, s)
  else do
    let r ← injControl mode
    setGroupControl J r.1 target r.2 self gci s

mutual
/-- `applyProdGroupControl(control_mode, target, forced)`.
Models: `WellsGroup.cpp:283-301` (group) and `:854-930` (well). -/
def Node.applyProd (J : Junk) (pu : PhaseUsage) (mode : ProdMode) : Node → Rat → Bool → W → M (Node × W)
  | .well n p i self gci, target, forced, s =>
    if !forced ∧ p.mode ≠ .grup ∧ p.mode ≠ .none then .ok (.well n p i self gci, s)
    else do
      let r ← wellApplyProd J pu mode target self gci s
      .ok (.well n p i self r.1, r.2)
  | .group n p i cs, target, forced, s =>
    if forced ∨ p.mode = .fld ∨ p.mode = .none then
      if prodGuides (!forced) cs = 0 then .ok (.group n p i cs, s)
      else do
        let r ← applyProdAll J pu mode cs target (prodGuides (!forced) cs) (!forced) s
        .ok (.group n { p with mode := .fld } i r.1, r.2)
    else .ok (.group n p i cs, s)
/-- The loop over the children.  Models: `WellsGroup.cpp:295-298`. -/
def applyProdAll (J : Junk) (pu : PhaseUsage) (mode : ProdMode) : List Node → Rat → Rat → Bool → W → M (List Node × W)
  | [], _, _, _, s => .ok ([], s)
  | c :: cs, target, my, only, s => do
    let r ← c.applyProd J pu mode (target * c.prodGuide only / my) true s
    let q ← applyProdAll J pu mode cs target my only r.2
    .ok (r.1 :: q.1, q.2)
end

mutual
/-- `applyInjGroupControl(control_mode, target, forced)`.
Models: `WellsGroup.cpp:259-276` (group) and `:778-818` (well). -/
def Node.applyInj (J : Junk) (mode : InjMode) : Node → Rat → Bool → W → M (Node × W)
  | .well n p i self gci, target, forced, s =>
    if !forced ∧ i.mode ≠ .grup ∧ i.mode ≠ .none then .ok (.well n p i self gci, s)
    else do
      let r ← wellApplyInj J mode target self gci s
      .ok (.well n p i self r.1, r.2)
  | .group n p i cs, target, forced, s =>
    if forced ∨ i.mode = .fld ∨ i.mode = .none then
      if injGuides (!forced) cs = 0 then .ok (.group n p i cs, s)
      else do
        let r ← applyInjAll J mode cs target (injGuides (!forced) cs) (!forced) s
        .ok (.group n p { i with mode := .fld } r.1, r.2)
    else .ok (.group n p i cs, s)
/-- The loop over the children.  Models: `WellsGroup.cpp:270-273`. -/
def applyInjAll (J : Junk) (mode : InjMode) : List Node → Rat → Rat → Bool → W → M (List Node × W)
  | [], _, _, _, s => .ok ([], s)
  | c :: cs, target, my, only, s => do
    let r ← c.applyInj J mode (target * c.injGuide only / my) true s
    let q ← applyInjAll J mode cs target my only r.2
    .ok (r.1 :: q.1, q.2)
end

/-! ### Applying the group controls of the deck -/

/-- The loop over the children of a group with its own production target.  Models: `WellsGroup.cpp:451-459`. -/
def shareProd (J : Junk) (pu : PhaseUsage) (mode : ProdMode) (my target : Rat) : List Node → W → M (List Node × W)
  | [], s => .ok ([], s)
  | c :: cs, s => do
    let r ← c.applyProd J pu mode (c.prodGuide true / my * target) false s
    let q ← shareProd J pu mode my target cs r.2
    .ok (r.1 :: q.1, q.2)

/-- A group with its own production target.  Models: `WellsGroup.cpp:446-461`. -/
def groupShareProd (J : Junk) (pu : PhaseUsage) (p : ProdSpec) (cs : List Node) (s : W) : M (List Node × W) :=
  if prodGuides true cs = 0 then .error .thrown
  else do
    let target ← prodTarget p p.mode
    shareProd J pu p.mode (prodGuides true cs) target cs s

mutual
/-- `applyProdGroupControls()`.  Models: `WellsGroup.cpp:438-472`, `:933-936`. -/
def Node.applyProdControls (J : Junk) (pu : PhaseUsage) : Node → W → M (Node × W)
  | .well n p i self gci, s => .ok (.well n p i self gci, s)
  | .group n p i cs, s =>
    if p.mode = .orat ∨ p.mode = .wrat ∨ p.mode = .lrat ∨ p.mode = .resv then do
      let r ← groupShareProd J pu p cs s
      .ok (.group n p i r.1, r.2)
    else if p.mode = .fld ∨ p.mode = .none then do
      let r ← applyProdControlsAll J pu cs s
      .ok (.group n p i r.1, r.2)
    else .error .thrown
/-- The loop over the children.  Models: `WellsGroup.cpp:465-467`. -/
def applyProdControlsAll (J : Junk) (pu : PhaseUsage) : List Node → W → M (List Node × W)
  | [], s => .ok ([], s)
  | c :: cs, s => do
    let r ← c.applyProdControls J pu s
    let q ← applyProdControlsAll J pu cs r.2
    .ok (r.1 :: q.1, q.2)
end

/-- The loop over the children of a group that distributes an injection rate `amount` times `factor`.
Models: `WellsGroup.cpp:482-490`, `:578-592` (without the macro `DIRTY_WELLCTRL_HACK`, which nothing defines), `:607-615`. -/
def shareInj (J : Junk) (mode : InjMode) (my amount factor : Rat) : List Node → W → M (List Node × W)
  | [], s => .ok ([], s)
  | c :: cs, s => do
    let w ← fdiv (c.injGuide true) my
    let r ← c.applyInj J mode (w * amount * factor) false s
    let q ← shareInj J mode my amount factor cs r.2
    .ok (r.1 :: q.1, q.2)

mutual
/-- `applyInjGroupControls()`.  Models: `WellsGroup.cpp:474-507`, `:938-941`. -/
def Node.applyInjControls (J : Junk) : Node → W → M (Node × W)
  | .well n p i self gci, s => .ok (.well n p i self gci, s)
  | .group n p i cs, s =>
    if i.mode = .rate ∨ i.mode = .resv then do
      let target ← injTarget i i.mode
      let r ← shareInj J i.mode (injGuides true cs) target 1 cs s
      .ok (.group n p i r.1, r.2)
    else if i.mode = .vrep ∨ i.mode = .rein then .ok (.group n p i cs, s)
    else if i.mode = .fld ∨ i.mode = .none then do
      let r ← applyInjControlsAll J cs s
      .ok (.group n p i r.1, r.2)
    else .error .thrown
/-- The loop over the children.  Models: `WellsGroup.cpp:500-502`. -/
def applyInjControlsAll (J : Junk) : List Node → W → M (List Node × W)
  | [], s => .ok ([], s)
  | c :: cs, s => do
    let r ← c.applyInjControls J s
    let q ← applyInjControlsAll J cs r.2
    .ok (r.1 :: q.1, q.2)
end

/-! ### Reinjection -/

mutual
/-- `getTotalProductionFlow(phase_flows, phase)`.  Models: `WellsGroup.cpp:539-547`, `:827-834`. -/
def Node.totalProduction (pu : PhaseUsage) (flows : List Rat) (phase : Phase) (s : W) : Node → M Rat
  | .group _ _ _ cs => totalProductions pu flows phase s cs
  | .well _ _ _ self _ => do
    let ty ← rdI s.type self
    if ty = .injector then .ok 0 else rdI flows (self * pu.num + pu.pos phase)
/-- Sum over the children. -/
def totalProductions (pu : PhaseUsage) (flows : List Rat) (phase : Phase) (s : W) : List Node → M Rat
  | [] => .ok 0
  | c :: cs => do
    let a ← c.totalProduction pu flows phase s
    let b ← totalProductions pu flows phase s cs
    .ok (a + b)
end

/-- The phase of an injector type.  Models: `WellsGroup.cpp:563-574`. -/
def InjectorType.phase : InjectorType → Phase
  | .water => .aqua
  | .gas => .vapour
  | .oil => .liquid

/-- The production of one phase, if it is present.  Models: `WellsGroup.cpp:596-604`. -/
def usedProduction (pu : PhaseUsage) (flows : List Rat) (s : W) (cs : List Node) (phase : Phase) : M Rat :=
  if pu.used phase then totalProductions pu flows phase s cs else .ok 0

/-- The reservoir volume produced by a group.  Models: `WellsGroup.cpp:595-604`. -/
def voidage (pu : PhaseUsage) (res : List Rat) (s : W) (cs : List Node) : M Rat := do
  let a ← usedProduction pu res s cs .aqua
  let l ← usedProduction pu res s cs .liquid
  let v ← usedProduction pu res s cs .vapour
  .ok (a + l + v)

/-- `applyExplicitReinjectionControls(well_reservoirrates_phase, well_surfacerates_phase)`.
Models: `WellsGroup.cpp:558-618`, `:849-853`. -/
def Node.applyReinjection (J : Junk) (pu : PhaseUsage) (res surf : List Rat) : Node → W → M (Node × W)
  | .well n p i self gci, s => .ok (.well n p i self gci, s)
  | .group n p i cs, s =>
    if i.mode = .rein then do
      let total ← totalProductions pu surf i.injectorType.phase s cs
      let r ← shareInj J .rate (injGuides true cs) (-total) i.reinjectionFraction cs s
      .ok (.group n p i r.1, r.2)
    else if i.mode = .vrep then do
      let total ← voidage pu res s cs
      let r ← shareInj J .resv (injGuides true cs) (-total) i.voidageFraction cs s
      .ok (.group n p i r.1, r.2)
    else .ok (.group n p i cs, s)

/-! ### Checking the constraints -/

/-- `struct WellPhasesSummed`: four arrays of three rates.  Models: `WellsGroup.hpp:39-48`. -/
structure Summed where
  resInj : List Rat
  resProd : List Rat
  surfInj : List Rat
  surfProd : List Rat
  deriving DecidableEq, Repr

/-- The constructor.  Models: `WellsGroup.cpp:31-39`. -/
def Summed.zero : Summed := ⟨[0, 0, 0], [0, 0, 0], [0, 0, 0], [0, 0, 0]⟩

/-- `operator+=`.  Models: `WellsGroup.cpp:41-49`. -/
def Summed.add (a b : Summed) : Summed :=
  ⟨List.zipWith (· + ·) a.resInj b.resInj, List.zipWith (· + ·) a.resProd b.resProd, List.zipWith (· + ·) a.surfInj b.surfInj,
    List.zipWith (· + ·) a.surfProd b.surfProd⟩

/-- Copies the rates of well `self` to an array of three rates.  Models: `WellsGroup.cpp:643-651`. -/
def copyRates (np : Nat) (rates : List Rat) (self : Int) : M (List Rat) :=
  loop np (fun p l => do
    let r ← rdI rates (np * self + p)
    wr l p r) [0, 0, 0]

/-- The rates of a well.  `summed_phases` is zero on entry.  Models: `WellsGroup.cpp:641-651`. -/
def wellRates (np : Nat) (res surf : List Rat) (ty : WellType) (self : Int) : M Summed := do
  let r ← copyRates np res self
  let q ← copyRates np surf self
  if ty = .injector then .ok { Summed.zero with resInj := r, surfInj := q }
  else .ok { Summed.zero with resProd := r, surfProd := q }

/-- The rate a control constrains.  Models: `WellsGroup.cpp:677-680`, `:691-694`. -/
def controlRate (np : Nat) (distr rates : List Rat) (k : Nat) (self : Int) : M Rat :=
  loop np (fun p s => do
    let d ← rd distr (np * k + p)
    let r ← rdI rates (np * self + p)
    .ok (s + d * r)) 0

/-- Whether control `k` of a well is violated.  Models: `WellsGroup.cpp:662-704`. -/
def violated (np : Nat) (bhp res surf : List Rat) (ty : WellType) (c : Controls) (self : Int) (k : Nat) : M Bool := do
  let t ← rd c.type k
  let target ← rd c.target k
  match t with
  | .bhp => do
    let p ← rdI bhp self
    .ok (if ty = .producer then decide (target > p) else decide (target < p))
  | .reservoirRate => do
    let r ← controlRate np c.distr res k self
    .ok (decide (|r| - |target| > max |r| |target| * (1 / 1000000)))
  | .surfaceRate => do
    let r ← controlRate np c.distr surf k self
    .ok (decide (|r| > |target|))

/-- The loop over the controls of a well: the first violated one, from `k` on.  Models: `WellsGroup.cpp:656-709`. -/
def firstViolated (np : Nat) (bhp res surf : List Rat) (ty : WellType) (c : Controls) (self gci : Int) : Nat → Nat → M (Option Nat)
  | 0, _ => .ok none
  | rem + 1, k =>
    if (k : Int) = c.current ∨ (k : Int) = gci then firstViolated np bhp res surf ty c self gci rem (k + 1)
    else do
      let v ← violated np bhp res surf ty c self k
      if v then .ok (some k) else firstViolated np bhp res surf ty c self gci rem (k + 1)

/-- `WellNode::conditionsMet`: the answer, the rates, the wells.  Models: `WellsGroup.cpp:636-711`. -/
def wellConditionsMet (pu : PhaseUsage) (bhp res surf : List Rat) (self gci : Int) (s : W) : M (Bool × Summed × W) := do
  let ty ← rdI s.type self
  let r ← wellRates pu.num res surf ty self
  let c ← rdI s.ctrls self
  let v ← firstViolated pu.num bhp res surf ty c self gci c.num 0
  match v with
  | none => .ok (true, r, s)
  | some k => do
    let s ← setCurrentControl self k s
    .ok (false, r, s)

/-- The first injection limit that is exceeded.  Models: `WellsGroup.cpp:323-347`. -/
def injViolated (pu : PhaseUsage) (i : InjSpec) (t : Summed) : List InjMode → M (Option InjMode)
  | [] => .ok none
  | m :: ms =>
    if i.mode = m then injViolated pu i t ms
    else do
      let target ← injTarget i m
      if target ≥ 0 then do
        let r ← injRate pu t.resInj t.surfInj 0 m
        if r > target then .ok (some m) else injViolated pu i t ms
      else injViolated pu i t ms

/-- The first production limit that is exceeded.  Models: `WellsGroup.cpp:352-379`. -/
def prodViolated (pu : PhaseUsage) (p : ProdSpec) (t : Summed) : List ProdMode → M (Option ProdMode)
  | [] => .ok none
  | m :: ms =>
    if p.mode = m then prodViolated pu p t ms
    else do
      let target ← prodTarget p m
      if target ≥ 0 then do
        let r ← prodRate pu t.resProd t.surfProd 0 m
        if |r| > target then .ok (some m) else prodViolated pu p t ms
      else prodViolated pu p t ms

mutual
/-- `getWorstOffending(…, mode)`: the number of the well (`none` for a null pointer) and its rate.
Models: `WellsGroup.cpp:422-436`, `:766-776`. -/
def Node.worst (pu : PhaseUsage) (res surf : List Rat) (mode : ProdMode) : Node → M (Option Int × Rat)
  | .well _ _ _ self _ => do
    let r ← prodRate pu res surf (self * pu.num) mode
    .ok (some self, r)
  | .group _ _ _ cs => worsts pu res surf mode true (none, 0) cs
/-- The loop over the children; `first` says that no child has been looked at. -/
def worsts (pu : PhaseUsage) (res surf : List Rat) (mode : ProdMode) : Bool → Option Int × Rat → List Node → M (Option Int × Rat)
  | _, mx, [] => .ok mx
  | first, mx, c :: cs => do
    let r ← c.worst pu res surf mode
    worsts pu res surf mode false (if first ∨ mx.2 < r.2 then r else mx) cs
end

/-- `shutWell()`: the current control is complemented (`shut_well_` is always true).  A null pointer is undefined behaviour.
Models: `WellsGroup.cpp:739-764`. -/
def shutWell (self : Option Int) (s : W) : M W :=
  match self with
  | none => .error .ub
  | some i => do
    let c ← rdI s.ctrls i
    let cs ← wrI s.ctrls i { c with current := -c.current - 1 }
    .ok { s with ctrls := cs }

/-- The reaction to an exceeded production limit; returns the group.  Models: `WellsGroup.cpp:381-398`. -/
def handleProd (J : Junk) (pu : PhaseUsage) (res surf : List Rat) (n : String) (p : ProdSpec) (i : InjSpec) (cs : List Node) (m : ProdMode) (s : W) :
    M (Node × W) :=
  match p.procedure with
  | .well => do
    let w ← worsts pu res surf m true (none, 0) cs
    let s ← shutWell w.1 s
    .ok (.group n p i cs, s)
  | .rate => do
    let target ← prodTarget p m
    (Node.group n p i cs).applyProd J pu m target true s
  | .none => .ok (.group n p i cs, s)

/-- Sets the injection mode of a node. -/
def Node.setInjMode (m : InjMode) : Node → Node
  | .group n p i cs => .group n p { i with mode := m } cs
  | .well n p i self gci => .well n p { i with mode := m } self gci

/-- The reaction to an exceeded injection limit; returns the group.  Models: `WellsGroup.cpp:342-343`. -/
def handleInj (J : Junk) (n : String) (p : ProdSpec) (i : InjSpec) (cs : List Node) (m : InjMode) (s : W) : M (Node × W) := do
  let target ← injTarget i m
  let r ← (Node.group n p i cs).applyInj J m target true s
  .ok (r.1.setInjMode m, r.2)

/-- The checks of a group after those of its children.  Models: `WellsGroup.cpp:322-402`. -/
def groupConditionsMet (J : Junk) (pu : PhaseUsage) (res surf : List Rat) (n : String) (p : ProdSpec) (i : InjSpec) (cs : List Node)
    (t : Summed) (s : W) : M (Bool × Summed × Node × W) := do
  let v ← injViolated pu i t [.rate, .resv]
  match v with
  | some m => do
    let r ← handleInj J n p i cs m s
    .ok (false, t, r.1, r.2)
  | none => do
    let v ← prodViolated pu p t [.orat, .wrat, .grat, .lrat, .resv]
    match v with
    | some m => do
      let r ← handleProd J pu res surf n p i cs m s
      .ok (false, t, r.1, r.2)
    | none => .ok (true, Summed.zero.add t, .group n p i cs, s)

mutual
/-- `conditionsMet(well_bhp, well_reservoirrates_phase, well_surfacerates_phase, summed_phases)`: the answer,
the sums (meaningful if the answer is true), the node and the wells.
Models: `WellsGroup.cpp:304-402`, `:636-711`. -/
def Node.conditionsMet (J : Junk) (pu : PhaseUsage) (bhp res surf : List Rat) : Node → W → M (Bool × Summed × Node × W)
  | .well n p i self gci, s => do
    let r ← wellConditionsMet pu bhp res surf self gci s
    .ok (r.1, r.2.1, .well n p i self gci, r.2.2)
  | .group n p i cs, s => do
    let r ← conditionsMetAll J pu bhp res surf Summed.zero cs s
    if !r.1 then .ok (false, r.2.1, .group n p i r.2.2.1, r.2.2.2)
    else groupConditionsMet J pu res surf n p i r.2.2.1 r.2.1 r.2.2.2
/-- The loop over the children.  Models: `WellsGroup.cpp:311-320`. -/
def conditionsMetAll (J : Junk) (pu : PhaseUsage) (bhp res surf : List Rat) : Summed → List Node → W → M (Bool × Summed × List Node × W)
  | t, [], s => .ok (true, t, [], s)
  | t, c :: cs, s => do
    let r ← c.conditionsMet J pu bhp res surf s
    if !r.1 then .ok (false, t, r.2.2.1 :: cs, r.2.2.2)
    else do
      let q ← conditionsMetAll J pu bhp res surf (t.add r.2.1) cs r.2.2.2
      .ok (q.1, q.2.1, r.2.2.1 :: q.2.2.1, q.2.2.2)
end

/-! ### Collections -/

/-- `WellCollection::conditionsMet`: the answer, the roots, the wells.  Models: `WellCollection.cpp:126-140`. -/
def collectionConditionsMet (J : Junk) (pu : PhaseUsage) (bhp res surf : List Rat) : List Node → W → M (Bool × List Node × W)
  | [], s => .ok (true, [], s)
  | r :: rs, s => do
    let a ← r.conditionsMet J pu bhp res surf s
    if !a.1 then .ok (false, a.2.2.1 :: rs, a.2.2.2)
    else do
      let b ← collectionConditionsMet J pu bhp res surf rs a.2.2.2
      .ok (b.1, a.2.2.1 :: b.2.1, b.2.2)

/-- `WellCollection::applyGroupControls()`.  Models: `WellCollection.cpp:148-154`. -/
def applyGroupControls (J : Junk) (pu : PhaseUsage) : List Node → W → M (List Node × W)
  | [], s => .ok ([], s)
  | r :: rs, s => do
    let a ← r.applyProdControls J pu s
    let b ← a.1.applyInjControls J a.2
    let c ← applyGroupControls J pu rs b.2
    .ok (b.1 :: c.1, c.2)

end Opm.Groups
