import Verif.Proofs.WellsGroupCheck
/-!
# Property theorems for well groups (C49, C72, C73, C74)

`WRep np s ws` (from the wells container) says that the structure `s` stores the list of wells `ws`; every history of calls of the
wells interface leads to such a state (`reachable`).
-/

namespace Opm.Groups
open Opm Wells

/-- Every structure built with the wells interface stores a list of wells: the hypothesis `WRep` of the theorems below is met by every history. -/
theorem reachable (J : Junk) (np nwells nperf : Nat) (ops : List Op) (hp : PreAll np [] ops) :
    ∃ s0 s, createWells J np nwells nperf = .ok s0 ∧ run J ops s0 = .ok s ∧ WRep np s (ops.foldl (specStep np) []) := by
  obtain ⟨s0, e0, r0⟩ := wrep_create J np nwells nperf
  obtain ⟨s, e, r⟩ := r0.run J ops hp
  exact ⟨s0, s, e0, e, r⟩

/-! ### From the outcome to what a client sees -/

theorem Outcome.unchanged {np : Nat} {ty : WellType} {Q : Leaf → CtrlType → Rat → List Rat → Prop} {N : Leaf → Prop} {ls ls' : List Leaf}
    {s s' : W} {ws ws' : List Well} (h : WRep np s ws) (h' : WRep np s' ws') (o : Outcome np ty Q N ls ls' ws ws') {i : Nat} (hi : i < ws.length)
    (ht : typeOf ws i ≠ ty ∨ ∀ l ∈ ls, l.self ≠ i) : Unchanged s s' i := by
  have hw : ws[i]? = some ws[i] := List.getElem?_eq_getElem hi
  have same : ws'[i]? = some ws[i] := by
    by_cases hm : ∃ l ∈ ls, l.self = i
    · obtain ⟨l, hl, e⟩ := hm
      rcases ht with ht | ht
      · exact o.same l hl i _ e hw (by simpa [typeOf, hw] using ht)
      · exact absurd e (ht l hl)
    · rw [o.others i (fun l hl e => hm ⟨l, hl, e⟩), hw]
  unfold Unchanged
  simp only [Int.toNat_natCast]
  rw [h'.get i _ same, h.get i _ hw]

theorem Outcome.under {np : Nat} {ty : WellType} {Q : Leaf → CtrlType → Rat → List Rat → Prop} {N : Leaf → Prop} {ls ls' : List Leaf}
    {s s' : W} {ws ws' : List Well} (h : WRep np s ws) (h' : WRep np s' ws') (hp : Placed ws ls) (o : Outcome np ty Q N ls ls' ws ws') {l : Leaf} (hl : l ∈ ls)
    (ht : typeOf ws l.self = ty) : (Unchanged s s' l.self ∧ N l) ∨ ∃ t g d, Q l t g d ∧ UnderControl s' l.self t g d := by
  obtain ⟨i, hi, w, hw, -⟩ := hp.exist l hl
  have hty : w.type = ty := by rw [← ht, hi]; simp [typeOf, hw]
  rcases o.set l hl i w hi hw hty with ⟨h1, h2⟩ | ⟨gci, t, g, d, hq, hg, h1⟩
  · left
    refine ⟨?_, h2⟩
    unfold Unchanged
    rw [hi]
    simp only [Int.toNat_natCast]
    rw [h'.get i _ h1, h.get i _ hw]
  · right
    refine ⟨t, g, d, hq, _, ?_, groupControl_obs (np := np) (t := t) (g := g) (d := d) (h.slots_le hw) hg⟩
    rw [hi]
    exact h'.get i _ h1

/-! ### Sharing -/

theorem sum_mul_left (c : Rat) (l : List Rat) : (l.map (fun g => c * g)).sum = c * l.sum := by
  induction l with
  | nil => simp
  | cons a l ih => simp [ih, mul_add]

/-- The shares of a production target. -/
def prodShares (target : Rat) (ls : List Leaf) : List Rat := ls.map (fun l => target * l.prod.guideRate / prodTotal ls)

/-- The shares of an injection target. -/
def injShares (target : Rat) (ls : List Leaf) : List Rat := ls.map (fun l => target * l.inj.guideRate / injTotal ls)

/-- **C49.**  The shares add up to the target. -/
theorem prodShares_sum {target : Rat} {ls : List Leaf} (h : prodTotal ls ≠ 0) : (prodShares target ls).sum = target := by
  have : prodShares target ls = (ls.map (fun l => l.prod.guideRate)).map (fun g => target / prodTotal ls * g) := by
    unfold prodShares; rw [List.map_map]; congr 1; funext l; simp only [Function.comp]; ring
  rw [this, sum_mul_left]
  change target / prodTotal ls * prodTotal ls = target
  field_simp

/-- **C49.**  The shares add up to the target. -/
theorem injShares_sum {target : Rat} {ls : List Leaf} (h : injTotal ls ≠ 0) : (injShares target ls).sum = target := by
  have : injShares target ls = (ls.map (fun l => l.inj.guideRate)).map (fun g => target / injTotal ls * g) := by
    unfold injShares; rw [List.map_map]; congr 1; funext l; simp only [Function.comp]; ring
  rw [this, sum_mul_left]
  change target / injTotal ls * injTotal ls = target
  field_simp

/-- **C49.**  Forcing a production target on a tree of any shape puts every producer that has a guide rate under a rate control with its share of
the target; producers without guide rate keep their control or get a zero rate, and all other wells are as before. -/
theorem forced_production_is_shared (J : Junk) {pu : PhaseUsage} (hu : pu.Valid) {m : ProdMode} (hm : m.isRate) (ha : m.Available pu) (n : Node)
    {s : W} {ws : List Well} (h : WRep pu.num s ws) (hp : Placed ws n.leaves) (hg : ProdGuided ws n.leaves) (h0 : prodTotal n.leaves ≠ 0) (target : Rat) :
    ∃ n' s' ws', n.applyProd J pu m target true s = .ok (n', s') ∧ WRep pu.num s' ws' ∧ Placed ws' n'.leaves ∧
      n'.leaves.map Leaf.fixed = n.leaves.map Leaf.fixed ∧
      (∀ l ∈ n.leaves, typeOf ws l.self = .producer → l.prod.guideRate ≠ 0 →
        UnderControl s' l.self m.ctrlType (-(target * l.prod.guideRate / prodTotal n.leaves)) (weights pu m)) ∧
      (∀ l ∈ n.leaves, typeOf ws l.self = .producer → l.prod.guideRate = 0 → Unchanged s s' l.self ∨ UnderControl s' l.self m.ctrlType 0 (weights pu m)) ∧
      (∀ i : Nat, i < ws.length → (typeOf ws i = .injector ∨ ∀ l ∈ n.leaves, l.self ≠ i) → Unchanged s s' i) := by
  obtain ⟨d, ed, dl, dw⟩ := prodControl_weights hu hm ha
  obtain ⟨n', s', ws', e, r, o⟩ := applyProd_ok (J := J) ed (by rw [dl]; exact hu.three) (target / prodTotal n.leaves) n h hp hg
  rw [prodGuide_false, div_mul_cancel₀ _ h0] at e
  refine ⟨n', s', ws', e, r, o.placed, o.fixed, ?_, ?_, ?_⟩
  · intro l hl ht hgu
    rcases o.under h r hp hl ht with ⟨-, hn⟩ | ⟨t, g, d', ⟨rfl, rfl, rfl⟩, hc⟩
    · exact absurd hn hgu
    · rw [dw] at hc
      convert hc using 1
      ring
  · intro l hl ht hgu
    rcases o.under h r hp hl ht with ⟨hn, -⟩ | ⟨t, g, d', ⟨rfl, rfl, rfl⟩, hc⟩
    · exact .inl hn
    · right
      rw [dw] at hc
      simpa [hgu] using hc
  · intro i hi ht
    exact o.unchanged h r hi (ht.imp (fun e => by rw [e]; simp) id)

/-- **C49.**  The same for injection: positive rates, all phases with weight one. -/
theorem forced_injection_is_shared (J : Junk) {np : Nat} (h3 : np ≤ 3) {m : InjMode} (hm : m.isTarget) (n : Node)
    {s : W} {ws : List Well} (h : WRep np s ws) (hp : Placed ws n.leaves) (hg : InjGuided ws n.leaves) (h0 : injTotal n.leaves ≠ 0) (target : Rat) :
    ∃ n' s' ws', n.applyInj J m target true s = .ok (n', s') ∧ WRep np s' ws' ∧ Placed ws' n'.leaves ∧
      n'.leaves.map Leaf.fixed = n.leaves.map Leaf.fixed ∧
      (∀ l ∈ n.leaves, typeOf ws l.self = .injector → l.inj.guideRate ≠ 0 →
        UnderControl s' l.self m.ctrlType (target * l.inj.guideRate / injTotal n.leaves) (List.replicate np 1)) ∧
      (∀ l ∈ n.leaves, typeOf ws l.self = .injector → l.inj.guideRate = 0 → Unchanged s s' l.self ∨ UnderControl s' l.self m.ctrlType 0 (List.replicate np 1)) ∧
      (∀ i : Nat, i < ws.length → (typeOf ws i = .producer ∨ ∀ l ∈ n.leaves, l.self ≠ i) → Unchanged s s' i) := by
  have hc : injControl m = .ok (m.ctrlType, [1, 1, 1]) := by rcases hm with rfl | rfl <;> rfl
  obtain ⟨n', s', ws', e, r, o⟩ := applyInj_ok (J := J) hc (np := np) h3 (target / injTotal n.leaves) n h hp hg
  rw [injGuide_false, div_mul_cancel₀ _ h0] at e
  refine ⟨n', s', ws', e, r, o.placed, o.fixed, ?_, ?_, ?_⟩
  · intro l hl ht hgu
    rcases o.under h r hp hl ht with ⟨-, hn⟩ | ⟨t, g, d', ⟨rfl, rfl, rfl⟩, hc⟩
    · exact absurd hn hgu
    · rw [take_ones h3] at hc
      convert hc using 1
      ring
  · intro l hl ht hgu
    rcases o.under h r hp hl ht with ⟨hn, -⟩ | ⟨t, g, d', ⟨rfl, rfl, rfl⟩, hc⟩
    · exact .inl hn
    · right
      rw [take_ones h3] at hc
      simpa [hgu] using hc
  · intro i hi ht
    exact o.unchanged h r hi (ht.imp (fun e => by rw [e]; simp) id)

/-- **C49.**  The production controls of the deck: in a tree of any shape, each topmost group with a rate target shares it among the producers below it,
in proportion to their guide rates; nothing else changes.  (The hypothesis `ProdSharable` is needed: see `own_control_is_overruled` and
`subgroup_share_is_lost`.) -/
theorem deck_production_is_shared (J : Junk) {pu : PhaseUsage} (hu : pu.Valid) (n : Node) {s : W} {ws : List Well} (h : WRep pu.num s ws)
    (hp : Placed ws n.leaves) (hg : ProdGuided ws n.leaves) (hpass : n.prodPasses)
    (hsh : ∀ x ∈ n.prodTops, ProdSharable x.2 ∧ x.1.mode.Available pu) :
    ∃ n' s' ws', n.applyProdControls J pu s = .ok (n', s') ∧ WRep pu.num s' ws' ∧ Placed ws' n'.leaves ∧
      n'.leaves.map Leaf.fixed = n.leaves.map Leaf.fixed ∧
      (∀ x ∈ n.prodTops, ∀ l ∈ leavesAll x.2, typeOf ws l.self = .producer → l.prod.guideRate ≠ 0 →
        UnderControl s' l.self x.1.mode.ctrlType (-(x.1.limit x.1.mode * l.prod.guideRate / prodTotal (leavesAll x.2))) (weights pu x.1.mode)) ∧
      (∀ i : Nat, i < ws.length → (typeOf ws i = .injector ∨ ∀ l ∈ n.leaves, l.self ≠ i) → Unchanged s s' i) := by
  obtain ⟨n', s', ws', e, r, o⟩ := applyProdControls_ok (J := J) hu n h hp hg hpass hsh
  refine ⟨n', s', ws', e, r, o.placed, o.fixed, ?_, ?_⟩
  · intro x hx l hl ht hgu
    rcases o.under h r hp (prodTops_leaves n x hx l hl) ht with ⟨-, hn⟩ | ⟨t, g, d', ⟨y, hy, hly, rfl, rfl, rfl⟩, hc⟩
    · exact absurd (hn x hx hl) hgu
    · obtain rfl := prodTops_unique n hp x hx y hy l hl hly
      exact hc
  · intro i hi ht
    exact o.unchanged h r hi (ht.imp (fun e => by rw [e]; simp) id)

/-- **C49.**  The injection controls of the deck. -/
theorem deck_injection_is_shared (J : Junk) {np : Nat} (h3 : np ≤ 3) (n : Node) {s : W} {ws : List Well} (h : WRep np s ws)
    (hp : Placed ws n.leaves) (hg : InjGuided ws n.leaves) (hpass : n.injPasses) (hsh : ∀ x ∈ n.injTops, InjSharable x.2) :
    ∃ n' s' ws', n.applyInjControls J s = .ok (n', s') ∧ WRep np s' ws' ∧ Placed ws' n'.leaves ∧
      n'.leaves.map Leaf.fixed = n.leaves.map Leaf.fixed ∧
      (∀ x ∈ n.injTops, ∀ l ∈ leavesAll x.2, typeOf ws l.self = .injector → l.inj.guideRate ≠ 0 →
        UnderControl s' l.self x.1.mode.ctrlType (x.1.limit * l.inj.guideRate / injTotal (leavesAll x.2)) (List.replicate np 1)) ∧
      (∀ i : Nat, i < ws.length → (typeOf ws i = .producer ∨ ∀ l ∈ n.leaves, l.self ≠ i) → Unchanged s s' i) := by
  obtain ⟨n', s', ws', e, r, o⟩ := applyInjControls_ok (J := J) h3 n h hp hg hpass hsh
  refine ⟨n', s', ws', e, r, o.placed, o.fixed, ?_, ?_⟩
  · intro x hx l hl ht hgu
    rcases o.under h r hp (injTops_leaves n x hx l hl) ht with ⟨-, hn⟩ | ⟨t, g, d', ⟨y, hy, hly, rfl, rfl, rfl⟩, hc⟩
    · exact absurd (hn x hx hl) hgu
    · obtain rfl := injTops_unique n hp x hx y hy l hl hly
      exact hc
  · intro i hi ht
    exact o.unchanged h r hi (ht.imp (fun e => by rw [e]; simp) id)

/-! ### Reinjection -/

/-- **C74.**  A reinjecting group gives its injectors the prescribed fraction of what the group produces, in proportion to their guide rates: surface
rates of the injected phase for reinjection, reservoir volumes for voidage replacement. -/
theorem reinjection_is_shared (J : Junk) {pu : PhaseUsage} (hu : pu.Valid) {res surf : List Rat} {nm : String} {p : ProdSpec} {i : InjSpec} {cs : List Node}
    {s : W} {ws : List Well} (h : WRep pu.num s ws) (hr : res.length = pu.num * ws.length) (hs : surf.length = pu.num * ws.length)
    (hp : Placed ws (leavesAll cs)) (hg : InjGuided ws (leavesAll cs)) (sh : InjSharable cs) (hm : i.mode = .rein ∨ i.mode = .vrep)
    (hav : i.mode = .rein → pu.used i.injectorType.fluid = true) :
    ∃ cs' s' ws', (Node.group nm p i cs).applyReinjection J pu res surf s = .ok (.group nm p i cs', s') ∧ WRep pu.num s' ws' ∧ Placed ws' (leavesAll cs') ∧
      (leavesAll cs').map Leaf.fixed = (leavesAll cs).map Leaf.fixed ∧
      (∀ l ∈ leavesAll cs, typeOf ws l.self = .injector → l.inj.guideRate ≠ 0 →
        UnderControl s' l.self (if i.mode = .vrep then .reservoirRate else .surfaceRate)
          (i.reinjected pu res surf (typeOf ws) (leavesAll cs) * l.inj.guideRate / injTotal (leavesAll cs)) (List.replicate pu.num 1)) ∧
      (∀ k : Nat, k < ws.length → (typeOf ws k = .producer ∨ ∀ l ∈ leavesAll cs, l.self ≠ k) → Unchanged s s' k) := by
  obtain ⟨cs', s', ws', e, r, o⟩ := applyReinjection_ok (J := J) hu (nm := nm) (p := p) h hr hs hp hg sh hm hav
  refine ⟨cs', s', ws', e, r, o.placed, o.fixed, ?_, ?_⟩
  · intro l hl ht hgu
    rcases o.under h r hp hl ht with ⟨-, hn⟩ | ⟨t, g, d', ⟨rfl, rfl, rfl⟩, hc⟩
    · exact absurd hn hgu
    · have : i.mode.ctrlType' = if i.mode = .vrep then CtrlType.reservoirRate else .surfaceRate := by rcases hm with e | e <;> simp [e, InjMode.ctrlType']
      rw [← this]; exact hc
  · intro k hk ht
    exact o.unchanged h r hk (ht.imp (fun e => by rw [e]; simp) id)

/-! ### Checking -/

/-- A client sees that all limits of wells and groups hold. -/
def AllHonoured (pu : PhaseUsage) (bhp res surf : List Rat) (s : W) (types : Int → WellType) (n : Node) : Prop :=
  (∀ l ∈ n.leaves, ∀ o, getWell s l.self.toNat = .ok o → WellOk pu.num bhp res surf o l) ∧ ∀ g ∈ n.groups, GroupOk pu res surf types g

theorem leafOk_iff {np : Nat} {bhp res surf : List Rat} {s : W} {ws : List Well} (h : WRep np s ws) {ls : List Leaf} (hp : Placed ws ls) {l : Leaf} (hl : l ∈ ls) :
    LeafOk np bhp res surf ws l ↔ ∀ o, getWell s l.self.toNat = .ok o → WellOk np bhp res surf o l := by
  obtain ⟨i, hi, w, hw, -⟩ := hp.exist l hl
  unfold LeafOk
  rw [hi]
  simp only [Int.toNat_natCast, hw, Option.some.injEq, forall_eq', h.get i w hw, Except.ok.injEq]

/-- **C72.**  The check of a tree of any shape answers yes exactly if all limits of all wells and groups hold (limits under which a well or group operates
and negative limits do not count); then nothing is changed. -/
theorem conditionsMet_exact (J : Junk) {pu : PhaseUsage} (hu : pu.Valid) {bhp res surf : List Rat} {s : W} {ws : List Well} (h : WRep pu.num s ws)
    (hb : bhp.length = ws.length) (hr : res.length = pu.num * ws.length) (hs : surf.length = pu.num * ws.length) (n : Node)
    (hp : Placed ws n.leaves) (hsane : ∀ g ∈ n.groups, g.1.Sane pu) :
    (AllHonoured pu bhp res surf s (typeOf ws) n → ∃ t, n.conditionsMet J pu bhp res surf s = .ok (true, t, n, s)) ∧
    (¬AllHonoured pu bhp res surf s (typeOf ws) n → ∀ r, n.conditionsMet J pu bhp res surf s = .ok r → r.1 = false) := by
  obtain ⟨h1, h2, -⟩ := conditionsMet_ok (J := J) hu h hb hr hs n hp hsane
  have e : AllHonoured pu bhp res surf s (typeOf ws) n ↔ AllOk pu bhp res surf ws n.leaves n.groups := by
    unfold AllHonoured AllOk
    refine and_congr ?_ Iff.rfl
    exact forall₂_congr (fun l hl => (leafOk_iff h hp hl).symm)
  rw [e]
  exact ⟨fun ok => ⟨_, h1 ok⟩, h2⟩

/-- **C72.**  If all groups honour their limits but some well does not, the check answers no and switches the first such well (and no other) to the first of
its constraints that it does not honour. -/
theorem conditionsMet_switches (J : Junk) {pu : PhaseUsage} (hu : pu.Valid) {bhp res surf : List Rat} {s : W} {ws : List Well} (h : WRep pu.num s ws)
    (hb : bhp.length = ws.length) (hr : res.length = pu.num * ws.length) (hs : surf.length = pu.num * ws.length) (n : Node)
    (hp : Placed ws n.leaves) (hsane : ∀ g ∈ n.groups, g.1.Sane pu) (hg : ∀ g ∈ n.groups, GroupOk pu res surf (typeOf ws) g)
    {a b : List Leaf} {l : Leaf} (hab : n.leaves = a ++ l :: b) (ha : ∀ x ∈ a, ∀ o, getWell s x.self.toNat = .ok o → WellOk pu.num bhp res surf o x)
    {o : Obs} (ho : getWell s l.self.toNat = .ok o) (hbad : ¬WellOk pu.num bhp res surf o l) :
    ∃ t s' k, n.conditionsMet J pu bhp res surf s = .ok (false, t, n, s') ∧ FirstBad pu.num bhp res surf o l 0 k ∧
      getWell s' l.self.toNat = .ok { o with current := k } ∧ ∀ j : Nat, j < ws.length → (j : Int) ≠ l.self → Unchanged s s' j := by
  obtain ⟨-, -, h3⟩ := conditionsMet_ok (J := J) hu h hb hr hs n hp hsane
  have hmem : l ∈ n.leaves := by rw [hab]; simp
  obtain ⟨t, s', e, i, w, k, hi, hw, hf, r⟩ := h3 hg a l b hab
    (fun x hx => (leafOk_iff h hp (by rw [hab]; exact List.mem_append_left _ hx)).2 (ha x hx))
    (fun hk => hbad ((leafOk_iff h hp hmem).1 hk o ho))
  have hget := h.get i w hw
  rw [hi, Int.toNat_natCast, hget] at ho
  cases ho
  refine ⟨t, s', k, e, hf, ?_, ?_⟩
  · rw [hi, Int.toNat_natCast]
    have hm : (ws.modify i (fun x => { x with current := (k : Int) }))[i]? = some { w with current := (k : Int) } := by
      rw [List.getElem?_modify_eq, hw]; rfl
    rw [r.get i _ hm]
    rfl
  · intro j hj hne
    have hwj : ws[j]? = some ws[j] := List.getElem?_eq_getElem hj
    have hm : (ws.modify i (fun x => { x with current := (k : Int) }))[j]? = some ws[j] := by
      have hij : i ≠ j := fun e => hne (by rw [hi, e])
      rw [List.getElem?_modify, hwj]; simp [hij]
    unfold Unchanged
    rw [Int.toNat_natCast, r.get j _ hm, h.get j _ hwj]

/-! ### Phases -/

/-- **C73.**  The phase numbering made from a deck: accepted exactly for two or three phases including oil; then the used phases are numbered from zero in
the order water, oil, gas. -/
theorem phaseUsage_valid (water oil gas : Bool) :
    (∀ pu, phaseUsageFromDeck water oil gas = .ok pu → pu.Valid ∧ pu.used .aqua = water ∧ pu.used .liquid = oil ∧ pu.used .vapour = gas) ∧
    ((∃ pu, phaseUsageFromDeck water oil gas = .ok pu) ↔ oil = true ∧ (water = true ∨ gas = true)) := by
  constructor
  · intro pu h
    cases water <;> cases oil <;> cases gas <;> simp [phaseUsageFromDeck] at h
    all_goals
      subst h
      refine ⟨⟨by decide, by decide, rfl, fun p => by cases p <;> rfl, rfl⟩, rfl, rfl, rfl⟩
  · cases water <;> cases oil <;> cases gas <;> simp [phaseUsageFromDeck]

/-- **C73.**  In a valid numbering the used phases occupy each position below the number of phases exactly once. -/
theorem phaseUsage_bijective {pu : PhaseUsage} (hu : pu.Valid) :
    (∀ p, pu.used p = true → pu.pos p < pu.num) ∧ (∀ p q, pu.used p = true → pu.used q = true → pu.pos p = pu.pos q → p = q) ∧
      ∀ k, k < pu.num → ∃ p, pu.used p = true ∧ pu.pos p = k := by
  obtain ⟨hl, p1, p2, p3, hn⟩ := phaseUsage_cases hu
  refine ⟨fun p hp => pos_lt hu hp, ?_, ?_⟩
  · intro p q hp hq e
    cases p <;> cases q <;> simp only [p1, p2, p3, hp, hq, Bool.toNat_true] at e <;> first | rfl | omega
  · intro k hk
    rw [hn] at hk
    cases h1 : pu.used .aqua <;> cases h3 : pu.used .vapour <;> simp only [h1, h3, Bool.toNat_true, Bool.toNat_false] at p2 p3 hn hk
    · exact ⟨.liquid, hl, by omega⟩
    · rcases (show k = 0 ∨ k = 1 by omega) with rfl | rfl
      · exact ⟨.liquid, hl, p2⟩
      · exact ⟨.vapour, h3, p3⟩
    · rcases (show k = 0 ∨ k = 1 by omega) with rfl | rfl
      · exact ⟨.aqua, h1, p1⟩
      · exact ⟨.liquid, hl, p2⟩
    · rcases (show k = 0 ∨ k = 1 ∨ k = 2 by omega) with rfl | rfl | rfl
      · exact ⟨.aqua, h1, p1⟩
      · exact ⟨.liquid, hl, p2⟩
      · exact ⟨.vapour, h3, p3⟩

end Opm.Groups
