import Verif.Props.WellsGroup
import Verif.Props.Wells
/-!
# Well groups: concrete cases and what the program does not do (C49, C72, C74)
-/

namespace Opm.Groups
open Opm Wells

/-- Three producers and an injector, each with one bottom hole pressure control. -/
def field : List Op :=
  [.addWell .producer 0 none [0] none none, .addWell .producer 0 none [1] none none, .addWell .producer 0 none [2] none none,
   .addWell .injector 0 (some [1, 0]) [3] none none,
   .appendControls .bhp 100 none 0, .appendControls .bhp 100 none 1, .appendControls .bhp 100 none 2, .appendControls .bhp 500 none 3,
   .setCurrent 0 0, .setCurrent 1 0, .setCurrent 2 0, .setCurrent 3 0]

/-- The structure it builds. -/
def start : M W := createWells J0 2 0 0 >>= run J0 field

/-- Water and oil. -/
def puOW : PhaseUsage := ⟨2, fun p => match p with | .aqua => true | .liquid => true | .vapour => false, fun p => match p with | .aqua => 0 | .liquid => 1 | .vapour => 2⟩

/-- Oil and gas. -/
def puOG : PhaseUsage := ⟨2, fun p => match p with | .aqua => false | .liquid => true | .vapour => true, fun p => match p with | .aqua => 0 | .liquid => 0 | .vapour => 1⟩

theorem puOW_valid : puOW.Valid := ⟨by decide, by decide, rfl, fun p => by cases p <;> rfl, rfl⟩
theorem puOG_valid : puOG.Valid := ⟨by decide, by decide, rfl, fun p => by cases p <;> rfl, rfl⟩

/-- The current control of a well. -/
def current (s : W) (i : Nat) : M (Option (CtrlType × Rat × List Rat)) := do
  let o ← getWell s i
  .ok (if o.current < 0 then none else o.controls[o.current.toNat]?)

/-- A producer with the given mode and guide rate. -/
def producer (m : ProdMode) (g : Rat) (self : Int) : Node := .well "P" { mode := m, guideRate := g } { guideRate := 0 } self (-1)
/-- An injector with the given mode and guide rate. -/
def injector (m : InjMode) (g : Rat) (self : Int) : Node := .well "I" { guideRate := 0 } { mode := m, guideRate := g } self (-1)

/-- A field with an oil target and an injection target: a subgroup with two producers, a producer and an injector. -/
def tree : Node :=
  .group "FIELD" { mode := .orat, oilMax := 100 } { mode := .rate, surfaceMax := 70 }
    [.group "A" { mode := .fld } {} [producer .grup 1 0, producer .grup 3 1], producer .bhp 0 2, injector .grup 2 3]

/-! The hypotheses of the sharing theorems are met. -/

example : PreAll 2 [] field := by decide +kernel

theorem tree_placed : Placed (field.foldl (specStep 2) []) tree.leaves := by
  refine ⟨by decide +kernel, ?_⟩
  intro l hl
  have hl' : l ∈ [(⟨{ mode := .grup, guideRate := 1 }, { guideRate := 0 }, 0, -1⟩ : Leaf), ⟨{ mode := .grup, guideRate := 3 }, { guideRate := 0 }, 1, -1⟩,
    ⟨{ mode := .bhp, guideRate := 0 }, { guideRate := 0 }, 2, -1⟩, ⟨{ guideRate := 0 }, { mode := .grup, guideRate := 2 }, 3, -1⟩] := hl
  simp only [List.mem_cons, List.not_mem_nil, or_false] at hl'
  rcases hl' with rfl | rfl | rfl | rfl
  · exact ⟨0, rfl, _, rfl, by decide⟩
  · exact ⟨1, rfl, _, rfl, by decide⟩
  · exact ⟨2, rfl, _, rfl, by decide⟩
  · exact ⟨3, rfl, _, rfl, by decide⟩

theorem tree_guided : ProdGuided (field.foldl (specStep 2) []) tree.leaves ∧ InjGuided (field.foldl (specStep 2) []) tree.leaves := by
  constructor
  all_goals
    intro l hl
    have hl' : l ∈ [(⟨{ mode := .grup, guideRate := 1 }, { guideRate := 0 }, 0, -1⟩ : Leaf), ⟨{ mode := .grup, guideRate := 3 }, { guideRate := 0 }, 1, -1⟩,
      ⟨{ mode := .bhp, guideRate := 0 }, { guideRate := 0 }, 2, -1⟩, ⟨{ guideRate := 0 }, { mode := .grup, guideRate := 2 }, 3, -1⟩] := hl
    simp only [List.mem_cons, List.not_mem_nil, or_false] at hl'
    rcases hl' with rfl | rfl | rfl | rfl
    all_goals
      refine ⟨by decide, ?_⟩
      intro w hw ht
      first
        | rfl
        | (exfalso
           have : (field.foldl (specStep 2) [])[_]? = some w := hw
           revert ht
           cases this
           decide)

example : tree.prodPasses ∧ tree.injPasses := by
  refine ⟨?_, ?_⟩
  · left; left; rfl
  · left; left; rfl

example : ∀ x ∈ tree.prodTops, ProdSharable x.2 ∧ x.1.mode.Available puOW := by
  intro x hx
  have hx' : x = ({ mode := .orat, oilMax := 100 }, [.group "A" { mode := .fld } {} [producer .grup 1 0, producer .grup 3 1], producer .bhp 0 2, injector .grup 2 3]) := by
    simpa [tree, Node.prodTops, ProdMode.isTarget] using hx
  subst hx'
  refine ⟨⟨by decide +kernel, by decide +kernel, ?_⟩, ?_⟩
  · intro g hg
    simp [groupsAll, Node.groups, producer, injector] at hg
    subst hg
    exact .inl rfl
  · right
    intro p hp
    simp [ProdMode.phases] at hp
    subst hp
    rfl

/-- The result: 100 is shared 25 to 75; the producer without guide rate and the injector keep their controls. -/
example : (do
    let s ← start
    let r ← tree.applyProdControls J0 puOW s
    let a ← current r.2 0
    let b ← current r.2 1
    let c ← current r.2 2
    let d ← current r.2 3
    .ok [a, b, c, d]) =
  Except.ok [some (CtrlType.surfaceRate, -25, [0, 1]), some (.surfaceRate, -75, [0, 1]), some (.bhp, 100, [0, 0]), some (.bhp, 500, [0, 0])] := by decide +kernel

/-- The injector gets the injection target; applying the controls of the deck again does not append further controls. -/
example : (do
    let s ← start
    let r ← applyGroupControls J0 puOW [tree] s
    let r ← applyGroupControls J0 puOW r.1 r.2
    let a ← current r.2 1
    let d ← current r.2 3
    .ok [a, d]) =
  Except.ok [some (CtrlType.surfaceRate, -75, [0, 1]), some (.surfaceRate, 70, [1, 1])] := by decide +kernel
example : (do
    let s ← start
    let r ← applyGroupControls J0 puOW [tree] s
    let r ← applyGroupControls J0 puOW r.1 r.2
    let o ← getWell r.2 3
    .ok o.controls.length) = Except.ok 2 := by decide +kernel

/-- Reinjection of half the produced water (rates: water and oil of each well). -/
example : (do
    let s ← start
    let r ← (Node.group "FIELD" {} { mode := .rein, injectorType := .water, reinjectionFraction := 1 / 2 } [producer .grup 1 0, producer .grup 1 1, injector .grup 1 3]).applyReinjection
      J0 puOW [0, 0, 0, 0, 0, 0, 0, 0] [-10, -3, -20, -4, -50, -50, 7, 0] s
    current r.2 3) = Except.ok (some (CtrlType.surfaceRate, 15, [1, 1])) := by decide +kernel

/-- Pressures and rates that honour everything, and rates that exceed the oil limit. -/
def okTree : Node := .group "FIELD" { mode := .none, oilMax := 100 } { surfaceMax := 70 } [producer .bhp 0 0, producer .bhp 0 1, injector .bhp 0 3]

example : (do
    let s ← start
    let r ← okTree.conditionsMet J0 puOW [120, 130, 0, 400] [0, 0, 0, 0, 0, 0, 0, 0] [-10, -30, -20, -40, -50, -50, 7, 0] s
    .ok r.1) = Except.ok true := by decide +kernel

example : (do
    let s ← start
    let r ← okTree.conditionsMet J0 puOW [120, 130, 0, 400] [0, 0, 0, 0, 0, 0, 0, 0] [-10, -60, -20, -60, -50, -50, 7, 0] s
    .ok r.1) = Except.ok false := by decide +kernel

/-- Two trees: both are shared out, and the check of both fails if the second one fails. -/
def east : Node := .group "EAST" { mode := .orat, oilMax := 100 } {} [producer .grup 1 0, producer .grup 3 1]
def west : Node := .group "WEST" { mode := .wrat, waterMax := 40, oilMax := 60 } { mode := .resv, reservoirMax := 9 } [producer .grup 2 2, injector .grup 5 3]

example : (do
    let s ← start
    let r ← applyGroupControls J0 puOW [east, west] s
    let a ← current r.2 0
    let b ← current r.2 1
    let c ← current r.2 2
    let d ← current r.2 3
    .ok [a, b, c, d]) =
  Except.ok [some (CtrlType.surfaceRate, -25, [0, 1]), some (.surfaceRate, -75, [0, 1]), some (.surfaceRate, -40, [1, 0]), some (.reservoirRate, 9, [1, 1])] := by
  decide +kernel

example : (do
    let s ← start
    let r ← collectionConditionsMet J0 puOW [120, 130, 150, 400] [0, 0, 0, 0, 0, 0, 9, 0] [-10, -30, -20, -40, -50, -50, 7, 0] [east, west] s
    .ok r.1) = Except.ok true := by decide +kernel
example : (do
    let s ← start
    let r ← collectionConditionsMet J0 puOW [120, 130, 150, 400] [0, 0, 0, 0, 0, 0, 9, 0] [-10, -30, -20, -40, -50, -70, 7, 0] [east, west] s
    .ok r.1) = Except.ok false := by decide +kernel

/-! ### What goes wrong -/

/-- **C49, negative.**  A producer on its own bottom hole pressure control, inside a subgroup of a group with an oil target, does not take part in the
sharing but is put under a zero rate. -/
theorem own_control_is_overruled :
    (do
      let s ← start
      let r ← (Node.group "FIELD" { mode := .orat, oilMax := 100 } {}
        [.group "A" { mode := .fld } {} [producer .grup 1 0, producer .bhp 1 1]]).applyProdControls J0 puOW s
      let a ← current r.2 0
      let b ← current r.2 1
      .ok [a, b]) = Except.ok [some (CtrlType.surfaceRate, -100, [0, 1]), some (.surfaceRate, 0, [0, 1])] := by decide +kernel

/-- **C49, negative.**  The share of a subgroup with its own target is not given to anyone: of the target 100 only 50 are assigned, and the subgroup's own
target 10 is not applied either. -/
theorem subgroup_share_is_lost :
    (do
      let s ← start
      let r ← (Node.group "FIELD" { mode := .orat, oilMax := 100 } {}
        [.group "A" { mode := .orat, oilMax := 10 } {} [producer .grup 1 0], producer .grup 1 1]).applyProdControls J0 puOW s
      let a ← current r.2 0
      let b ← current r.2 1
      .ok [a, b]) = Except.ok [some (CtrlType.bhp, 100, [0, 0]), some (.surfaceRate, -50, [0, 1])] := by decide +kernel

/-- **C49, negative.**  A producer without a control mode gets a zero rate although it has a guide rate. -/
theorem modeless_producer_is_stopped :
    (do
      let s ← start
      let r ← (Node.group "FIELD" { mode := .orat, oilMax := 100 } {} [producer .grup 1 0, producer .none 1 1]).applyProdControls J0 puOW s
      let a ← current r.2 0
      let b ← current r.2 1
      .ok [a, b]) = Except.ok [some (CtrlType.surfaceRate, -100, [0, 1]), some (.surfaceRate, 0, [0, 1])] := by decide +kernel

/-- **C49, negative.**  A group gas target is never shared. -/
theorem gas_target_throws (J : Junk) (pu : PhaseUsage) (nm : String) (p : ProdSpec) (i : InjSpec) (cs : List Node) (s : W) (h : p.mode = .grat) :
    (Node.group nm p i cs).applyProdControls J pu s = .error .thrown := by
  simp [Node.applyProdControls, h]

/-- **C49, negative.**  An injection target over wells without injection guide rate is a division of zero by zero. -/
theorem injection_without_guide (J : Junk) (nm : String) (p : ProdSpec) (i : InjSpec) (c : Node) (cs : List Node) (s : W) (h : i.mode = .rate)
    (h0 : injGuides true (c :: cs) = 0) : (Node.group nm p i (c :: cs)).applyInjControls J s = .error .nonFinite := by
  simp only [Node.applyInjControls, h, true_or, if_true, injTarget, bind_ok, h0, shareInj]
  rfl

/-- **C72, negative.**  A group without procedure that exceeds a limit: the answer is no and nothing is changed, so asking again gives the same answer and
the caller's `while (!conditionsMet)` does not end. -/
theorem no_procedure_no_progress :
    (do
      let s ← start
      let n : Node := .group "FIELD" { mode := .none, oilMax := 100 } {} [producer .bhp 0 0, producer .bhp 0 1]
      let r ← n.conditionsMet J0 puOW [120, 130, 0, 400] [0, 0, 0, 0, 0, 0, 0, 0] [-10, -60, -20, -60, -50, -50, 7, 0] s
      .ok (r.1, decide (r.2.2.2 = s))) = Except.ok (false, true) := by decide +kernel

/-- **C72, negative.**  With procedure `WELL` the producer that is shut is the one with the smallest rate: production rates are negative. -/
theorem smallest_producer_is_shut :
    (do
      let s ← start
      let n : Node := .group "FIELD" { mode := .none, oilMax := 100, procedure := .well } {} [producer .bhp 0 0, producer .bhp 0 1]
      let r ← n.conditionsMet J0 puOW [120, 130, 0, 400] [0, 0, 0, 0, 0, 0, 0, 0] [-10, -1, -20, -200, -50, -50, 7, 0] s
      let a ← getWell r.2.2.2 0
      let b ← getWell r.2.2.2 1
      .ok (r.1, a.current, b.current)) = Except.ok (false, -1, 0) := by decide +kernel

/-- **C72, negative.**  If the first child is a group without wells and no other rate is larger, the well to be shut is a null pointer. -/
theorem empty_group_null_pointer :
    (do
      let s ← start
      let n : Node := .group "FIELD" { mode := .none, oilMax := 100, procedure := .well } {} [.group "EMPTY" {} {} [], producer .bhp 0 1]
      n.conditionsMet J0 puOW [120, 130, 0, 400] [0, 0, 0, 0, 0, 0, 0, 0] [-10, -1, -20, -200, -50, -50, 7, 0] s >>= fun r => .ok r.1) = Except.error .ub := by decide +kernel

/-- **C72, negative.**  Shutting a shut well opens it. -/
theorem shut_twice_opens {np : Nat} {s : W} {ws : List Well} (h : WRep np s ws) {i : Nat} (hi : i < ws.length) :
    ∃ s', shutWell (some i) s = .ok s' ∧ shutWell (some i) s' = .ok s := by
  have hw : ws[i]? = some ws[i] := List.getElem?_eq_getElem hi
  obtain ⟨c, hc, -, hl⟩ := h.ctrlAt i _ hw
  unfold shutWell
  simp only
  rw [rdI_natCast, rd_of_getElem? hc, bind_ok, wrI_natCast, wr_ok hl, bind_ok]
  refine ⟨_, rfl, ?_⟩
  simp only
  rw [rdI_natCast, rd_ok (by simpa using hl), bind_ok, wrI_natCast, wr_ok (by simpa using hl), bind_ok]
  congr 1
  obtain ⟨hl', e⟩ := List.getElem?_eq_some_iff.1 hc
  simp only [List.getElem_set_self, List.set_set]
  have : s.ctrls.set i { c with current := -(-c.current - 1) - 1 } = s.ctrls := by
    rw [show (-(-c.current - 1) - 1 : Int) = c.current by ring]
    rw [← e]
    exact List.set_getElem_self hl'
  rw [this]

/-- **C72, negative.**  With oil and gas the liquid rate counts the oil twice: 60 exceeds the limit 100. -/
theorem liquid_counts_oil_twice :
    (do
      let s ← start
      let n : Node := .group "FIELD" { mode := .none, liquidMax := 100 } {} [producer .bhp 0 0]
      let r ← n.conditionsMet J0 puOG [120, 130, 0, 400] [0, 0, 0, 0, 0, 0, 0, 0] [-60, -1, 0, 0, 0, 0, 0, 0] s
      .ok r.1) = Except.ok false := by decide +kernel

/-- **C74, negative.**  Only a root group reinjects: below a group with another mode nothing happens. -/
theorem nested_reinjection_ignored (J : Junk) (pu : PhaseUsage) (res surf : List Rat) (nm : String) (p : ProdSpec) (i : InjSpec) (cs : List Node) (s : W)
    (h1 : i.mode ≠ .rein) (h2 : i.mode ≠ .vrep) : (Node.group nm p i cs).applyReinjection J pu res surf s = .ok (.group nm p i cs, s) := by
  simp [Node.applyReinjection, h1, h2]

end Opm.Groups
