import Verif.Props.WellsGroupCases
/-!
What happens when a group exceeds one of its limits (`WellsGroup::conditionsMet`): with procedure `RATE` an exceeded production limit becomes the target of
the group, and an exceeded injection limit becomes its injection target and mode; in both cases the target is shared among all wells of the group, also
those that were operating under their own constraints.
-/
namespace Opm.Groups
open Opm Opm.Wells

/-- A production limit of the group counts and is exceeded. -/
def ProdExceeded (pu : PhaseUsage) (res surf : List Rat) (types : Int → WellType) (p : ProdSpec) (ls : List Leaf) (m : ProdMode) : Prop :=
  p.mode ≠ m ∧ 0 ≤ p.limit m ∧ p.limit m < |groupProd pu res surf types ls m|

/-- An injection limit of the group counts and is exceeded. -/
def InjExceeded (pu : PhaseUsage) (res surf : List Rat) (types : Int → WellType) (i : InjSpec) (ls : List Leaf) : InjMode → Prop
  | .rate => i.mode ≠ .rate ∧ 0 ≤ i.surfaceMax ∧ i.surfaceMax < groupTotal pu.num surf types .injector ls
  | .resv => i.mode ≠ .resv ∧ 0 ≤ i.reservoirMax ∧ i.reservoirMax < groupTotal pu.num res types .injector ls
  | _ => False

/-- The order in which the production limits are looked at: oil, water, gas, liquid, reservoir volume. -/
def prodOrder : List ProdMode := [.orat, .wrat, .grat, .lrat, .resv]

theorem prodViolated_first {pu : PhaseUsage} (hu : pu.Valid) {p : ProdSpec} (hsane : p.Sane pu) {res surf : List Rat} {types : Int → WellType} {ls : List Leaf} :
    ∀ (a : List ProdMode) (m : ProdMode) (b : List ProdMode), (∀ x ∈ a ++ m :: b, x.isRate) → (∀ x ∈ a, ¬ProdExceeded pu res surf types p ls x) →
      ProdExceeded pu res surf types p ls m → prodViolated pu p (total pu.num res surf types ls) (a ++ m :: b) = .ok (some m)
  | [], m, b, hr, _, ⟨h1, h2, h3⟩ => by
    have hm := hr m (by simp)
    have ht : prodTarget p m = .ok (p.limit m) := by rcases hm with rfl | rfl | rfl | rfl | rfl <;> rfl
    rw [List.nil_append]
    unfold prodViolated
    rw [if_neg h1, ht, bind_ok, if_pos h2, prodRate_total hu hm (hsane m hm h2), bind_ok, if_pos h3]
  | x :: a, m, b, hr, ha, he => by
    have ih := prodViolated_first hu hsane a m b (fun y hy => hr y (by rw [List.cons_append]; exact List.mem_cons_of_mem _ hy))
      (fun y hy => ha y (List.mem_cons_of_mem _ hy)) he
    have hm := hr x (by simp)
    have ht : prodTarget p x = .ok (p.limit x) := by rcases hm with rfl | rfl | rfl | rfl | rfl <;> rfl
    have hx := ha x (by simp)
    rw [List.cons_append]
    unfold prodViolated
    by_cases h1 : p.mode = x
    · rw [if_pos h1]; exact ih
    · rw [if_neg h1, ht, bind_ok]
      by_cases h2 : p.limit x ≥ 0
      · rw [if_pos h2, prodRate_total hu hm (hsane x hm h2), bind_ok, if_neg (fun h3 => hx ⟨h1, h2, h3⟩)]
        exact ih
      · rw [if_neg h2]; exact ih

/-- **C72.**  A group whose wells and subgroups honour all limits, whose own injection limits hold, and one of whose production limits is exceeded: with
procedure `RATE` the answer is no, and the first exceeded limit is shared, in proportion to the guide rates, among all producers of the group, whatever
constraint each was operating under. -/
theorem production_breach_is_shared (J : Junk) {pu : PhaseUsage} (hu : pu.Valid) {bhp res surf : List Rat} {s : W} {ws : List Well} (h : WRep pu.num s ws)
    (hb : bhp.length = ws.length) (hr : res.length = pu.num * ws.length) (hs : surf.length = pu.num * ws.length)
    {nm : String} {p : ProdSpec} {i : InjSpec} {cs : List Node} (hp : Placed ws (leavesAll cs)) (hsane : ∀ g ∈ (Node.group nm p i cs).groups, g.1.Sane pu)
    (hwells : ∀ l ∈ leavesAll cs, ∀ o, getWell s l.self.toNat = .ok o → WellOk pu.num bhp res surf o l)
    (hgroups : ∀ g ∈ groupsAll cs, GroupOk pu res surf (typeOf ws) g)
    (hinj : ∀ x, ¬InjExceeded pu res surf (typeOf ws) i (leavesAll cs) x)
    {a b : List ProdMode} {m : ProdMode} (hab : prodOrder = a ++ m :: b) (ha : ∀ x ∈ a, ¬ProdExceeded pu res surf (typeOf ws) p (leavesAll cs) x)
    (hm : ProdExceeded pu res surf (typeOf ws) p (leavesAll cs) m) (hproc : p.procedure = .rate)
    (hg : ProdGuided ws (leavesAll cs)) (h0 : prodTotal (leavesAll cs) ≠ 0) :
    ∃ t n' s' ws', (Node.group nm p i cs).conditionsMet J pu bhp res surf s = .ok (false, t, n', s') ∧ WRep pu.num s' ws' ∧ Placed ws' n'.leaves ∧
      n'.leaves.map Leaf.fixed = (leavesAll cs).map Leaf.fixed ∧
      (∀ l ∈ leavesAll cs, typeOf ws l.self = .producer → l.prod.guideRate ≠ 0 →
        UnderControl s' l.self m.ctrlType (-(p.limit m * l.prod.guideRate / prodTotal (leavesAll cs))) (weights pu m)) ∧
      (∀ l ∈ leavesAll cs, typeOf ws l.self = .producer → l.prod.guideRate = 0 →
        Unchanged s s' l.self ∨ UnderControl s' l.self m.ctrlType 0 (weights pu m)) ∧
      (∀ j : Nat, j < ws.length → (typeOf ws j = .injector ∨ ∀ l ∈ leavesAll cs, l.self ≠ j) → Unchanged s s' j) := by
  have hrate : ∀ x ∈ prodOrder, x.isRate := by intro x hx; unfold ProdMode.isRate; simpa [prodOrder] using hx
  have hmr : m.isRate := hrate m (by rw [hab]; simp)
  have hps : p.Sane pu := hsane (p, i, leavesAll cs) (by simp [Node.groups])
  obtain ⟨h1, -, -⟩ := conditionsMetAll_ok (J := J) hu h hb hr hs cs [] (by simpa using hp)
    (fun g hg => hsane g (by simp only [Node.groups]; exact List.mem_cons_of_mem _ hg))
  rw [total_nil, List.nil_append] at h1
  have hch := h1 ⟨fun l hl => (leafOk_iff h hp hl).2 (hwells l hl), hgroups⟩
  obtain ⟨v, e, hv⟩ := injViolated_ok hu (i := i) (res := res) (surf := surf) (types := typeOf ws) (ls := leavesAll cs)
  obtain rfl := hv.2 ⟨fun a b => not_lt.1 (fun c => hinj .rate ⟨a, b, c⟩), fun a b => not_lt.1 (fun c => hinj .resv ⟨a, b, c⟩)⟩
  have e' := prodViolated_first hu hps a m b (fun x hx => hrate x (by rw [hab]; exact hx)) ha hm
  rw [← hab] at e'
  have ht : prodTarget p m = .ok (p.limit m) := by rcases hmr with rfl | rfl | rfl | rfl | rfl <;> rfl
  obtain ⟨n', s', ws', ea, r⟩ := forced_production_is_shared J hu hmr (hps m hmr hm.2.1) (Node.group nm p i cs) h (by simpa [Node.leaves] using hp)
    (by simpa [Node.leaves] using hg) (by simpa [Node.leaves] using h0) (p.limit m)
  simp only [Node.leaves] at r
  refine ⟨total pu.num res surf (typeOf ws) (leavesAll cs), n', s', ws', ?_, r⟩
  unfold Node.conditionsMet
  rw [hch, bind_ok]
  simp only [Bool.not_true, Bool.false_eq_true, if_false]
  unfold groupConditionsMet
  rw [e, bind_ok]
  simp only
  rw [show ([.orat, .wrat, .grat, .lrat, .resv] : List ProdMode) = prodOrder from rfl, e', bind_ok]
  simp only
  unfold handleProd
  rw [hproc]
  simp only
  rw [ht, bind_ok, ea, bind_ok]

/-- The injection limit with the given mode. -/
def InjSpec.limitOf (i : InjSpec) (m : InjMode) : Rat := if m = .resv then i.reservoirMax else i.surfaceMax

/-- **C72.**  A group whose wells and subgroups honour all limits and one of whose injection limits is exceeded: the answer is no, the first exceeded limit
is shared, in proportion to the guide rates, among all injectors of the group, and the group operates in the mode of that limit from then on. -/
theorem injection_breach_is_shared (J : Junk) {pu : PhaseUsage} (hu : pu.Valid) {bhp res surf : List Rat} {s : W} {ws : List Well} (h : WRep pu.num s ws)
    (hb : bhp.length = ws.length) (hr : res.length = pu.num * ws.length) (hs : surf.length = pu.num * ws.length)
    {nm : String} {p : ProdSpec} {i : InjSpec} {cs : List Node} (hp : Placed ws (leavesAll cs)) (hsane : ∀ g ∈ (Node.group nm p i cs).groups, g.1.Sane pu)
    (hwells : ∀ l ∈ leavesAll cs, ∀ o, getWell s l.self.toNat = .ok o → WellOk pu.num bhp res surf o l)
    (hgroups : ∀ g ∈ groupsAll cs, GroupOk pu res surf (typeOf ws) g)
    {m : InjMode} (hm : InjExceeded pu res surf (typeOf ws) i (leavesAll cs) m)
    (hfirst : m = .resv → ¬InjExceeded pu res surf (typeOf ws) i (leavesAll cs) .rate)
    (hg : InjGuided ws (leavesAll cs)) (h0 : injTotal (leavesAll cs) ≠ 0) :
    ∃ t cs' s' ws', (Node.group nm p i cs).conditionsMet J pu bhp res surf s = .ok (false, t, .group nm p { i with mode := m } cs', s') ∧
      WRep pu.num s' ws' ∧ Placed ws' (leavesAll cs') ∧
      (leavesAll cs').map Leaf.fixed = (leavesAll cs).map Leaf.fixed ∧
      (∀ l ∈ leavesAll cs, typeOf ws l.self = .injector → l.inj.guideRate ≠ 0 →
        UnderControl s' l.self m.ctrlType (i.limitOf m * l.inj.guideRate / injTotal (leavesAll cs)) (List.replicate pu.num 1)) ∧
      (∀ l ∈ leavesAll cs, typeOf ws l.self = .injector → l.inj.guideRate = 0 →
        Unchanged s s' l.self ∨ UnderControl s' l.self m.ctrlType 0 (List.replicate pu.num 1)) ∧
      (∀ j : Nat, j < ws.length → (typeOf ws j = .producer ∨ ∀ l ∈ leavesAll cs, l.self ≠ j) → Unchanged s s' j) := by
  have hmt : m.isTarget := by
    unfold InjMode.isTarget
    cases m <;> simp_all [InjExceeded]
  obtain ⟨h1, -, -⟩ := conditionsMetAll_ok (J := J) hu h hb hr hs cs [] (by simpa using hp)
    (fun g hg => hsane g (by simp only [Node.groups]; exact List.mem_cons_of_mem _ hg))
  rw [total_nil, List.nil_append] at h1
  have hch := h1 ⟨fun l hl => (leafOk_iff h hp hl).2 (hwells l hl), hgroups⟩
  have e1 : injRate pu (total pu.num res surf (typeOf ws) (leavesAll cs)).resInj (total pu.num res surf (typeOf ws) (leavesAll cs)).surfInj 0 .rate =
      .ok (groupTotal pu.num surf (typeOf ws) .injector (leavesAll cs)) := by
    simp only [injRate, total]; rw [phaseSum_three hu.num_cases]; rfl
  have e2 : injRate pu (total pu.num res surf (typeOf ws) (leavesAll cs)).resInj (total pu.num res surf (typeOf ws) (leavesAll cs)).surfInj 0 .resv =
      .ok (groupTotal pu.num res (typeOf ws) .injector (leavesAll cs)) := by
    simp only [injRate, total]; rw [phaseSum_three hu.num_cases]; rfl
  have e : injViolated pu i (total pu.num res surf (typeOf ws) (leavesAll cs)) [.rate, .resv] = .ok (some m) := by
    rcases hmt with rfl | rfl
    · unfold injViolated
      rw [if_neg hm.1, show injTarget i .rate = .ok i.surfaceMax from rfl, bind_ok, if_pos hm.2.1, e1, bind_ok, if_pos hm.2.2]
    · have last : injViolated pu i (total pu.num res surf (typeOf ws) (leavesAll cs)) [.resv] = .ok (some .resv) := by
        unfold injViolated
        rw [if_neg hm.1, show injTarget i .resv = .ok i.reservoirMax from rfl, bind_ok, if_pos hm.2.1, e2, bind_ok, if_pos hm.2.2]
      have hf := hfirst rfl
      unfold injViolated
      by_cases c1 : i.mode = .rate
      · rw [if_pos c1]; exact last
      · rw [if_neg c1, show injTarget i .rate = .ok i.surfaceMax from rfl, bind_ok]
        by_cases c2 : i.surfaceMax ≥ 0
        · rw [if_pos c2, e1, bind_ok, if_neg (fun c3 => hf ⟨c1, c2, c3⟩)]; exact last
        · rw [if_neg c2]; exact last
  have ht : injTarget i m = .ok (i.limitOf m) := by rcases hmt with rfl | rfl <;> rfl
  obtain ⟨n', s', ws', ea, r⟩ := forced_injection_is_shared J hu.three hmt (Node.group nm p i cs) h (by simpa [Node.leaves] using hp)
    (by simpa [Node.leaves] using hg) (by simpa [Node.leaves] using h0) (i.limitOf m)
  have shape : ∃ cs', n' = .group nm p { i with mode := .fld } cs' := by
    have ea' := ea
    unfold Node.applyInj at ea'
    rw [if_pos (.inl rfl)] at ea'
    split at ea'
    · rename_i hz
      exfalso
      apply h0
      have : injGuides false cs = injTotal (leavesAll cs) := by
        have := injGuide_false (Node.group nm p i cs)
        simpa [Node.injGuide, Node.leaves] using this
      rw [← this]; exact hz
    · obtain ⟨q, -, hq⟩ := bind_eq_ok.1 ea'
      cases hq
      exact ⟨q.1, rfl⟩
  obtain ⟨cs', rfl⟩ := shape
  simp only [Node.leaves] at r
  refine ⟨total pu.num res surf (typeOf ws) (leavesAll cs), cs', s', ws', ?_, r⟩
  unfold Node.conditionsMet
  rw [hch, bind_ok]
  simp only [Bool.not_true, Bool.false_eq_true, if_false]
  unfold groupConditionsMet
  rw [e, bind_ok]
  simp only
  unfold handleInj
  rw [ht, bind_ok, ea, bind_ok]
  rfl

/-! ### A case -/

/-- A field with an oil limit and an injection limit; one producer operates under its own constraint. -/
def limited : Node := .group "FIELD" { mode := .none, oilMax := 100, procedure := .rate } { mode := .none, surfaceMax := 70 }
  [.group "A" { mode := .fld } {} [producer .grup 1 0, producer .bhp 3 1], producer .bhp 0 2, injector .bhp 2 3]

/-- The wells of this field produce 10 + 200 + 50 of oil and inject 7. -/
def producing : List Rat := [-10, -10, -20, -200, -50, -50, 7, 0]
/-- The wells of this field inject 90. -/
def injecting : List Rat := [-10, -10, -20, -20, -50, -50, 90, 0]

theorem limited_leaves : limited.leaves = [⟨{ mode := .grup, guideRate := 1 }, { guideRate := 0 }, 0, -1⟩, ⟨{ mode := .bhp, guideRate := 3 }, { guideRate := 0 }, 1, -1⟩,
    ⟨{ mode := .bhp, guideRate := 0 }, { guideRate := 0 }, 2, -1⟩, ⟨{ guideRate := 0 }, { mode := .bhp, guideRate := 2 }, 3, -1⟩] := rfl

theorem limited_placed : Placed (field.foldl (specStep 2) []) limited.leaves := by
  refine ⟨by decide +kernel, ?_⟩
  intro l hl
  rw [limited_leaves] at hl
  simp only [List.mem_cons, List.not_mem_nil, or_false] at hl
  rcases hl with rfl | rfl | rfl | rfl
  · exact ⟨0, rfl, _, rfl, by decide⟩
  · exact ⟨1, rfl, _, rfl, by decide⟩
  · exact ⟨2, rfl, _, rfl, by decide⟩
  · exact ⟨3, rfl, _, rfl, by decide⟩

theorem limited_guided : ProdGuided (field.foldl (specStep 2) []) limited.leaves ∧ InjGuided (field.foldl (specStep 2) []) limited.leaves := by
  constructor
  all_goals
    intro l hl
    rw [limited_leaves] at hl
    simp only [List.mem_cons, List.not_mem_nil, or_false] at hl
    rcases hl with rfl | rfl | rfl | rfl
    all_goals
      refine ⟨by decide, ?_⟩
      intro w hw ht
      first
        | rfl
        | (exfalso
           have : (field.foldl (specStep 2) [])[_]? = some w := hw
           revert ht
           cases this
           decide)

example : prodTotal limited.leaves = 4 ∧ injTotal limited.leaves = 2 := by decide +kernel

example : ProdExceeded puOW [0, 0, 0, 0, 0, 0, 0, 0] producing (typeOf (field.foldl (specStep 2) [])) { mode := .none, oilMax := 100, procedure := .rate }
    limited.leaves .orat := by
  unfold ProdExceeded
  decide +kernel

example : InjExceeded puOW [0, 0, 0, 0, 0, 0, 0, 0] injecting (typeOf (field.foldl (specStep 2) [])) { mode := .none, surfaceMax := 70 } limited.leaves .rate := by
  unfold InjExceeded
  decide +kernel

/-- The oil limit is shared 1 : 3, although the second producer was operating under its own constraint. -/
example : (do
    let s ← start
    let r ← limited.conditionsMet J0 puOW [120, 130, 140, 400] [0, 0, 0, 0, 0, 0, 0, 0] producing s
    let a ← current r.2.2.2 0
    let b ← current r.2.2.2 1
    let c ← current r.2.2.2 3
    let d ← current s 3
    .ok (r.1, decide (a = some (.surfaceRate, -25, [0, 1])), decide (b = some (.surfaceRate, -75, [0, 1])), decide (c = d))) =
      Except.ok (false, true, true, true) := by decide +kernel

/-- The injection limit goes to the injector, and the group is in that mode afterwards: asked again, it raises no objection. -/
example : (do
    let s ← start
    let r ← limited.conditionsMet J0 puOW [120, 130, 140, 400] [0, 0, 0, 0, 0, 0, 0, 0] injecting s
    let a ← current r.2.2.2 3
    let q ← r.2.2.1.conditionsMet J0 puOW [120, 130, 140, 400] [0, 0, 0, 0, 0, 0, 0, 0] injecting r.2.2.2
    .ok (r.1, decide (a = some (.surfaceRate, 70, [1, 1])), q.1)) = Except.ok (false, true, true) := by decide +kernel

end Opm.Groups
