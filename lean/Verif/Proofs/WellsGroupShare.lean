import Verif.Proofs.WellsGroup
/-! # Proofs for well groups: the group controls of the deck -/

namespace Opm.Groups
open Opm Wells

/-! ### Phases -/

theorem phaseUsage_cases {pu : PhaseUsage} (hu : pu.Valid) :
    pu.used .liquid = true ∧ pu.pos .aqua = 0 ∧ pu.pos .liquid = (pu.used .aqua).toNat ∧ pu.pos .vapour = (pu.used .aqua).toNat + 1 ∧
      pu.num = (pu.used .aqua).toNat + 1 + (pu.used .vapour).toNat := by
  have hl := hu.oil
  refine ⟨hl, ?_, ?_, ?_, ?_⟩
  · rw [hu.pos]; simp
  · rw [hu.pos]; cases h : pu.used .aqua <;> simp [h]
  · rw [hu.pos]; cases h : pu.used .aqua <;> simp [h, hl]
  · rw [hu.num]; cases h : pu.used .aqua <;> cases h' : pu.used .vapour <;> simp [h, hl, h']

theorem prodControl_weights {pu : PhaseUsage} (hu : pu.Valid) {m : ProdMode} (hm : m.isRate) (ha : m.Available pu) :
    ∃ d, prodControl pu m = .ok (m.ctrlType, d) ∧ d.length = 3 ∧ d.take pu.num = weights pu m := by
  obtain ⟨hl, p1, p2, p3, hn⟩ := phaseUsage_cases hu
  have hnum := hu.two
  unfold weights
  rcases hm with rfl | rfl | rfl | rfl | rfl
  all_goals unfold ProdMode.Available at ha
  all_goals simp only [ProdMode.phases, reduceCtorEq, false_or, true_or, List.mem_cons, List.not_mem_nil, or_false, forall_eq_or_imp, forall_eq] at ha
  all_goals cases h1 : pu.used .aqua <;> cases h3 : pu.used .vapour
  all_goals simp only [h1, h3, Bool.toNat_true, Bool.toNat_false] at p2 p3 hn ha
  all_goals first
    | omega
    | (simp at ha; done)
    | (rw [hn]
       simp [prodControl, hl, h1, h3, p1, p2, p3, wr, ProdMode.ctrlType, ProdMode.phases, List.range_succ, bind, Except.bind])

theorem take_ones {np : Nat} (h : np ≤ 3) : ([1, 1, 1] : List Rat).take np = List.replicate np 1 := by
  match np, h with
  | 0, _ => rfl
  | 1, _ => rfl
  | 2, _ => rfl
  | 3, _ => rfl

/-- The type of a well. -/
def typeOf (ws : List Well) (i : Int) : WellType := ((ws[i.toNat]?).map Well.type).getD .injector

/-! ### Guide rates under group control -/

mutual
theorem prodGuide_true : ∀ (n : Node) (_ : ∀ l ∈ n.leaves, l.prod.mode = .grup ∨ l.prod.guideRate = 0), n.prodGuide true = n.prodGuide false
  | .well n p i self gci, h => by
    have := h ⟨p, i, self, gci⟩ (by simp [Node.leaves])
    simp only [Node.prodGuide]
    rcases this with h | h <;> simp at h <;> simp [h]
  | .group n p i cs, h => by
    simp only [Node.prodGuide]
    exact prodGuides_true cs (by simpa only [Node.leaves] using h)
theorem prodGuides_true : ∀ (cs : List Node) (_ : ∀ l ∈ leavesAll cs, l.prod.mode = .grup ∨ l.prod.guideRate = 0), prodGuides true cs = prodGuides false cs
  | [], _ => rfl
  | c :: cs, h => by
    simp only [leavesAll] at h
    simp only [prodGuides]
    rw [prodGuide_true c (fun l hl => h l (List.mem_append_left _ hl)), prodGuides_true cs (fun l hl => h l (List.mem_append_right _ hl))]
end

theorem applyProdAll_only {J : Junk} {pu : PhaseUsage} {m : ProdMode} : ∀ (cs : List Node) (_ : ∀ l ∈ leavesAll cs, l.prod.mode = .grup ∨ l.prod.guideRate = 0)
    (target my : Rat) (s : W), applyProdAll J pu m cs target my true s = applyProdAll J pu m cs target my false s
  | [], _, _, _, _ => by simp only [applyProdAll]
  | c :: cs, h, target, my, s => by
    simp only [leavesAll] at h
    simp only [applyProdAll]
    rw [prodGuide_true c (fun l hl => h l (List.mem_append_left _ hl))]
    congr 1
    funext r
    rw [applyProdAll_only cs (fun l hl => h l (List.mem_append_right _ hl))]

/-- An unforced call on a child without its own control. -/
theorem applyProd_unforced {J : Junk} {pu : PhaseUsage} {m : ProdMode} {t : CtrlType} {d : List Rat} (hc : prodControl pu m = .ok (t, d))
    (hd : pu.num ≤ d.length) (ρ : Rat) (n : Node) {s : W} {ws : List Well} (h : WRep pu.num s ws) (hp : Placed ws n.leaves) (hg : ProdGuided ws n.leaves)
    (hw : ∀ l ∈ n.leaves, l.prod.mode = .grup ∨ l.prod.guideRate = 0) (hgr : ∀ g ∈ n.groups, g.1.mode = .fld ∨ g.1.mode = .none) :
    ∃ n' s' ws', n.applyProd J pu m (ρ * n.prodGuide false) false s = .ok (n', s') ∧ WRep pu.num s' ws' ∧
      Outcome pu.num .producer (Share t (d.take pu.num) (fun l => -(ρ * l.prod.guideRate))) (fun l => l.prod.guideRate = 0) n.leaves n'.leaves ws ws' := by
  cases n with
  | well n p i self gci =>
    by_cases hm : p.mode ≠ .grup ∧ p.mode ≠ .none
    · simp only [Node.leaves] at hp hg hw ⊢
      unfold Node.applyProd
      rw [if_pos ⟨by simp, hm.1, hm.2⟩]
      refine ⟨_, s, ws, rfl, h, ?_⟩
      simp only [Node.leaves]
      refine Outcome.refl hp ?_
      intro l hl
      rcases hw l hl with h1 | h1
      · rw [List.mem_singleton] at hl
        subst hl
        exact absurd h1 hm.1
      · exact h1
    · obtain ⟨n', s', ws', e, r, o⟩ := applyProd_ok (J := J) hc hd ρ _ h hp hg
      refine ⟨n', s', ws', ?_, r, o⟩
      rw [← e]
      unfold Node.applyProd
      rw [if_neg (by simpa using hm), if_neg (by simp)]
  | group n p i cs =>
    obtain ⟨n', s', ws', e, r, o⟩ := applyProd_ok (J := J) hc hd ρ _ h hp hg
    refine ⟨n', s', ws', ?_, r, o⟩
    rw [← e]
    simp only [Node.leaves] at hw
    have hmode := hgr (p, i, leavesAll cs) (by simp [Node.groups])
    simp only at hmode
    unfold Node.applyProd
    rw [if_pos (.inr hmode)]
    conv_rhs => rw [if_pos (.inl rfl)]
    simp only [Bool.not_false, Bool.not_true]
    rw [prodGuides_true cs hw, applyProdAll_only cs hw]

theorem shareProd_ok {J : Junk} {pu : PhaseUsage} {m : ProdMode} {t : CtrlType} {d : List Rat} (hc : prodControl pu m = .ok (t, d))
    (hd : pu.num ≤ d.length) {my target ρ : Rat} (hmy : my ≠ 0) (hρ : target = ρ * my) : ∀ (cs : List Node) {s : W} {ws : List Well},
    WRep pu.num s ws → Placed ws (leavesAll cs) → ProdGuided ws (leavesAll cs) →
    (∀ l ∈ leavesAll cs, l.prod.mode = .grup ∨ l.prod.guideRate = 0) → (∀ g ∈ groupsAll cs, g.1.mode = .fld ∨ g.1.mode = .none) →
    ∃ cs' s' ws', shareProd J pu m my target cs s = .ok (cs', s') ∧ WRep pu.num s' ws' ∧
      Outcome pu.num .producer (Share t (d.take pu.num) (fun l => -(ρ * l.prod.guideRate))) (fun l => l.prod.guideRate = 0)
        (leavesAll cs) (leavesAll cs') ws ws'
  | [], s, ws, h, hp, _, _, _ => by
    unfold shareProd
    exact ⟨_, s, ws, rfl, h, Outcome.refl hp (fun l hl => by simp [leavesAll] at hl)⟩
  | c :: cs, s, ws, h, hp, hg, hw, hgr => by
    simp only [leavesAll, groupsAll] at hp hg hw hgr ⊢
    unfold shareProd
    have e0 : c.prodGuide true / my * target = ρ * c.prodGuide false := by
      rw [prodGuide_true c (fun l hl => hw l (List.mem_append_left _ hl)), hρ]
      field_simp
    rw [e0]
    obtain ⟨c', s1, ws1, e1, r1, o1⟩ := applyProd_unforced (J := J) hc hd ρ c h hp.left (fun l hl => hg l (List.mem_append_left _ hl))
      (fun l hl => hw l (List.mem_append_left _ hl)) (fun g hg => hgr g (List.mem_append_left _ hg))
    rw [e1, bind_ok]
    have hp1 : Placed ws1 (leavesAll cs) := hp.right.mono (fun l hl i hi =>
      o1.others i (fun l' hl' e => hp.disj hl' hl (by rw [hi, e])))
    have hg1 : ProdGuided ws1 (leavesAll cs) := ProdGuided.mono (fun l hl => hg l (List.mem_append_right _ hl)) o1.types
    obtain ⟨cs', s2, ws2, e2, r2, o2⟩ := shareProd_ok (J := J) hc hd hmy hρ cs r1 hp1 hg1
      (fun l hl => hw l (List.mem_append_right _ hl)) (fun g hg => hgr g (List.mem_append_right _ hg))
    simp only
    rw [e2, bind_ok]
    exact ⟨_, s2, ws2, rfl, r2, o1.append hp o2⟩

/-! ### Whole trees -/

/-- What the topmost groups with a target ask of well `l`. -/
def ProdAsk (pu : PhaseUsage) (tops : List (ProdSpec × List Node)) (l : Leaf) (t : CtrlType) (g : Rat) (d : List Rat) : Prop :=
  ∃ x ∈ tops, l ∈ leavesAll x.2 ∧ t = x.1.mode.ctrlType ∧ g = -(x.1.limit x.1.mode * l.prod.guideRate / prodTotal (leavesAll x.2)) ∧ d = weights pu x.1.mode

/-- Well `l` may be left alone. -/
def ProdFree (tops : List (ProdSpec × List Node)) (l : Leaf) : Prop := ∀ x ∈ tops, l ∈ leavesAll x.2 → l.prod.guideRate = 0

mutual
theorem prodTops_leaves : ∀ (n : Node) x, x ∈ n.prodTops → ∀ l ∈ leavesAll x.2, l ∈ n.leaves
  | .well _ _ _ _ _, x, h, _, _ => by simp [Node.prodTops] at h
  | .group n p i cs, x, h, l, hl => by
    simp only [Node.prodTops] at h
    simp only [Node.leaves]
    split at h
    · rw [List.mem_singleton] at h; subst h; exact hl
    · exact prodTopsAll_leaves cs x h l hl
theorem prodTopsAll_leaves : ∀ (cs : List Node) x, x ∈ prodTopsAll cs → ∀ l ∈ leavesAll x.2, l ∈ leavesAll cs
  | [], x, h, _, _ => by simp [prodTopsAll] at h
  | c :: cs, x, h, l, hl => by
    simp only [prodTopsAll, List.mem_append] at h
    simp only [leavesAll, List.mem_append]
    rcases h with h | h
    · exact .inl (prodTops_leaves c x h l hl)
    · exact .inr (prodTopsAll_leaves cs x h l hl)
end

mutual
theorem prodTops_unique {ws : List Well} : ∀ (n : Node), Placed ws n.leaves → ∀ x ∈ n.prodTops, ∀ y ∈ n.prodTops, ∀ l, l ∈ leavesAll x.2 → l ∈ leavesAll y.2 → x = y
  | .well _ _ _ _ _, _, x, h, _, _, _, _, _ => by simp [Node.prodTops] at h
  | .group n p i cs, hp, x, hx, y, hy, l, hl, hl' => by
    simp only [Node.prodTops] at hx hy
    simp only [Node.leaves] at hp
    split at hx
    · rename_i hc
      rw [if_pos hc] at hy
      rw [List.mem_singleton] at hx hy
      rw [hx, hy]
    · rename_i hc
      rw [if_neg hc] at hy
      exact prodTopsAll_unique cs hp x hx y hy l hl hl'
theorem prodTopsAll_unique {ws : List Well} : ∀ (cs : List Node), Placed ws (leavesAll cs) → ∀ x ∈ prodTopsAll cs, ∀ y ∈ prodTopsAll cs, ∀ l, l ∈ leavesAll x.2 → l ∈ leavesAll y.2 → x = y
  | [], _, x, h, _, _, _, _, _ => by simp [prodTopsAll] at h
  | c :: cs, hp, x, hx, y, hy, l, hl, hl' => by
    simp only [prodTopsAll, List.mem_append] at hx hy
    simp only [leavesAll] at hp
    rcases hx with hx | hx <;> rcases hy with hy | hy
    · exact prodTops_unique c hp.left x hx y hy l hl hl'
    · exact absurd rfl (hp.disj (prodTops_leaves c x hx l hl) (prodTopsAll_leaves cs y hy l hl'))
    · exact absurd rfl (hp.disj (prodTops_leaves c y hy l hl') (prodTopsAll_leaves cs x hx l hl))
    · exact prodTopsAll_unique cs hp.right x hx y hy l hl hl'
end

mutual
theorem applyProdControls_ok {J : Junk} {pu : PhaseUsage} (hu : pu.Valid) : ∀ (n : Node) {s : W} {ws : List Well}, WRep pu.num s ws →
    Placed ws n.leaves → ProdGuided ws n.leaves → n.prodPasses → (∀ x ∈ n.prodTops, ProdSharable x.2 ∧ x.1.mode.Available pu) →
    ∃ n' s' ws', n.applyProdControls J pu s = .ok (n', s') ∧ WRep pu.num s' ws' ∧
      Outcome pu.num .producer (ProdAsk pu n.prodTops) (ProdFree n.prodTops) n.leaves n'.leaves ws ws'
  | .well n p i self gci, s, ws, h, hp, _, _, _ => by
    unfold Node.applyProdControls
    exact ⟨_, s, ws, rfl, h, Outcome.refl hp (fun l _ x hx => by simp [Node.prodTops] at hx)⟩
  | .group n p i cs, s, ws, h, hp, hg, hpass, hsh => by
    simp only [Node.leaves, Node.prodPasses, Node.prodTops] at hp hg hpass hsh ⊢
    unfold Node.applyProdControls
    by_cases ht : p.mode.isTarget
    · rw [if_pos ht] at hsh ⊢
      unfold ProdMode.isTarget at ht
      rw [if_pos ht]
      obtain ⟨sh, av⟩ := hsh (p, cs) (by simp)
      simp only at sh av
      have hr : p.mode.isRate := by
        unfold ProdMode.isRate
        rcases ht with h | h | h | h <;> simp [h]
      have htg : prodTarget p p.mode = .ok (p.limit p.mode) := by
        rcases ht with h | h | h | h <;> rw [h] <;> rfl
      obtain ⟨d, ed, dl, dw⟩ := prodControl_weights hu hr av
      have hmy : prodGuides true cs = prodTotal (leavesAll cs) := by rw [prodGuides_true cs sh.wells, prodGuides_false]
      have hmy0 : prodTotal (leavesAll cs) ≠ 0 := sh.some
      unfold groupShareProd
      rw [hmy, if_neg hmy0, htg, bind_ok]
      obtain ⟨cs', s', ws', e, r, o⟩ := shareProd_ok (J := J) ed (by rw [dl]; exact hu.three) hmy0
        (ρ := p.limit p.mode / prodTotal (leavesAll cs)) (target := p.limit p.mode) (by field_simp) cs h hp hg sh.wells sh.groups
      rw [e, bind_ok]
      refine ⟨_, s', ws', rfl, r, ?_⟩
      simp only [Node.leaves]
      refine o.weaken ?_ ?_
      · rintro l hl t g d' ⟨rfl, rfl, rfl⟩
        exact ⟨(p, cs), by simp, hl, rfl, by simp only; ring, dw⟩
      · intro l _ h0 x _ _
        exact h0
    · rw [if_neg ht] at hsh ⊢
      obtain ⟨hm, hps⟩ := hpass.resolve_left ht
      unfold ProdMode.isTarget at ht
      rw [if_neg ht]
      rw [if_pos hm]
      obtain ⟨cs', s', ws', e, r, o⟩ := applyProdControlsAll_ok (J := J) hu cs h hp hg hps hsh
      rw [e, bind_ok]
      exact ⟨_, s', ws', rfl, r, by simpa only [Node.leaves] using o⟩
theorem applyProdControlsAll_ok {J : Junk} {pu : PhaseUsage} (hu : pu.Valid) : ∀ (cs : List Node) {s : W} {ws : List Well}, WRep pu.num s ws →
    Placed ws (leavesAll cs) → ProdGuided ws (leavesAll cs) → prodPassesAll cs → (∀ x ∈ prodTopsAll cs, ProdSharable x.2 ∧ x.1.mode.Available pu) →
    ∃ cs' s' ws', applyProdControlsAll J pu cs s = .ok (cs', s') ∧ WRep pu.num s' ws' ∧
      Outcome pu.num .producer (ProdAsk pu (prodTopsAll cs)) (ProdFree (prodTopsAll cs)) (leavesAll cs) (leavesAll cs') ws ws'
  | [], s, ws, h, hp, _, _, _ => by
    unfold applyProdControlsAll
    exact ⟨_, s, ws, rfl, h, Outcome.refl hp (fun l hl => by simp [leavesAll] at hl)⟩
  | c :: cs, s, ws, h, hp, hg, hpass, hsh => by
    simp only [leavesAll, prodPassesAll, prodTopsAll] at hp hg hpass hsh ⊢
    unfold applyProdControlsAll
    obtain ⟨c', s1, ws1, e1, r1, o1⟩ := applyProdControls_ok (J := J) hu c h hp.left (fun l hl => hg l (List.mem_append_left _ hl)) hpass.1
      (fun x hx => hsh x (List.mem_append_left _ hx))
    rw [e1, bind_ok]
    have hp1 : Placed ws1 (leavesAll cs) := hp.right.mono (fun l hl i hi =>
      o1.others i (fun l' hl' e => hp.disj hl' hl (by rw [hi, e])))
    have hg1 : ProdGuided ws1 (leavesAll cs) := ProdGuided.mono (fun l hl => hg l (List.mem_append_right _ hl)) o1.types
    obtain ⟨cs', s2, ws2, e2, r2, o2⟩ := applyProdControlsAll_ok (J := J) hu cs r1 hp1 hg1 hpass.2 (fun x hx => hsh x (List.mem_append_right _ hx))
    simp only
    rw [e2, bind_ok]
    refine ⟨_, s2, ws2, rfl, r2, ?_⟩
    simp only [leavesAll]
    refine (o1.weaken ?_ ?_).append hp (o2.weaken ?_ ?_)
    · rintro l _ t g d ⟨x, hx, hl⟩
      exact ⟨x, List.mem_append_left _ hx, hl⟩
    · intro l hl hf x hx hlx
      rcases List.mem_append.1 hx with hx | hx
      · exact hf x hx hlx
      · exact absurd rfl (hp.disj hl (prodTopsAll_leaves cs x hx l hlx))
    · rintro l _ t g d ⟨x, hx, hl⟩
      exact ⟨x, List.mem_append_right _ hx, hl⟩
    · intro l hl hf x hx hlx
      rcases List.mem_append.1 hx with hx | hx
      · exact absurd rfl (hp.disj (prodTops_leaves c x hx l hlx) hl)
      · exact hf x hx hlx
end

/-! ### Injection -/

mutual
theorem injGuide_true : ∀ (n : Node) (_ : ∀ l ∈ n.leaves, l.inj.mode = .grup ∨ l.inj.guideRate = 0), n.injGuide true = n.injGuide false
  | .well n p i self gci, h => by
    have := h ⟨p, i, self, gci⟩ (by simp [Node.leaves])
    simp only [Node.injGuide]
    rcases this with h | h <;> simp at h <;> simp [h]
  | .group n p i cs, h => by
    simp only [Node.injGuide]
    exact injGuides_true cs (by simpa only [Node.leaves] using h)
theorem injGuides_true : ∀ (cs : List Node) (_ : ∀ l ∈ leavesAll cs, l.inj.mode = .grup ∨ l.inj.guideRate = 0), injGuides true cs = injGuides false cs
  | [], _ => rfl
  | c :: cs, h => by
    simp only [leavesAll] at h
    simp only [injGuides]
    rw [injGuide_true c (fun l hl => h l (List.mem_append_left _ hl)), injGuides_true cs (fun l hl => h l (List.mem_append_right _ hl))]
end

theorem applyInjAll_only {J : Junk} {m : InjMode} : ∀ (cs : List Node) (_ : ∀ l ∈ leavesAll cs, l.inj.mode = .grup ∨ l.inj.guideRate = 0)
    (target my : Rat) (s : W), applyInjAll J m cs target my true s = applyInjAll J m cs target my false s
  | [], _, _, _, _ => by simp only [applyInjAll]
  | c :: cs, h, target, my, s => by
    simp only [leavesAll] at h
    simp only [applyInjAll]
    rw [injGuide_true c (fun l hl => h l (List.mem_append_left _ hl))]
    congr 1
    funext r
    rw [applyInjAll_only cs (fun l hl => h l (List.mem_append_right _ hl))]

/-- An unforced call on a child without its own control. -/
theorem applyInj_unforced {J : Junk} {np : Nat} {m : InjMode} {t : CtrlType} {d : List Rat} (hc : injControl m = .ok (t, d))
    (hd : np ≤ d.length) (ρ : Rat) (n : Node) {s : W} {ws : List Well} (h : WRep np s ws) (hp : Placed ws n.leaves) (hg : InjGuided ws n.leaves)
    (hw : ∀ l ∈ n.leaves, l.inj.mode = .grup ∨ l.inj.guideRate = 0) (hgr : ∀ g ∈ n.groups, g.2.1.mode = .fld ∨ g.2.1.mode = .none) :
    ∃ n' s' ws', n.applyInj J m (ρ * n.injGuide false) false s = .ok (n', s') ∧ WRep np s' ws' ∧
      Outcome np .injector (Share t (d.take np) (fun l => ρ * l.inj.guideRate)) (fun l => l.inj.guideRate = 0) n.leaves n'.leaves ws ws' := by
  cases n with
  | well n p i self gci =>
    by_cases hm : i.mode ≠ .grup ∧ i.mode ≠ .none
    · simp only [Node.leaves] at hp hg hw ⊢
      unfold Node.applyInj
      rw [if_pos ⟨by simp, hm.1, hm.2⟩]
      refine ⟨_, s, ws, rfl, h, ?_⟩
      simp only [Node.leaves]
      refine Outcome.refl hp ?_
      intro l hl
      rcases hw l hl with h1 | h1
      · rw [List.mem_singleton] at hl
        subst hl
        exact absurd h1 hm.1
      · exact h1
    · obtain ⟨n', s', ws', e, r, o⟩ := applyInj_ok (J := J) hc hd ρ _ h hp hg
      refine ⟨n', s', ws', ?_, r, o⟩
      rw [← e]
      unfold Node.applyInj
      rw [if_neg (by simpa using hm), if_neg (by simp)]
  | group n p i cs =>
    obtain ⟨n', s', ws', e, r, o⟩ := applyInj_ok (J := J) hc hd ρ _ h hp hg
    refine ⟨n', s', ws', ?_, r, o⟩
    rw [← e]
    simp only [Node.leaves] at hw
    have hmode := hgr (p, i, leavesAll cs) (by simp [Node.groups])
    simp only at hmode
    unfold Node.applyInj
    rw [if_pos (.inr hmode)]
    conv_rhs => rw [if_pos (.inl rfl)]
    simp only [Bool.not_false, Bool.not_true]
    rw [injGuides_true cs hw, applyInjAll_only cs hw]

theorem shareInj_ok {J : Junk} {np : Nat} {m : InjMode} {t : CtrlType} {d : List Rat} (hc : injControl m = .ok (t, d))
    (hd : np ≤ d.length) {my amount factor ρ : Rat} (hmy : my ≠ 0) (hρ : amount * factor = ρ * my) : ∀ (cs : List Node) {s : W} {ws : List Well},
    WRep np s ws → Placed ws (leavesAll cs) → InjGuided ws (leavesAll cs) →
    (∀ l ∈ leavesAll cs, l.inj.mode = .grup ∨ l.inj.guideRate = 0) → (∀ g ∈ groupsAll cs, g.2.1.mode = .fld ∨ g.2.1.mode = .none) →
    ∃ cs' s' ws', shareInj J m my amount factor cs s = .ok (cs', s') ∧ WRep np s' ws' ∧
      Outcome np .injector (Share t (d.take np) (fun l => ρ * l.inj.guideRate)) (fun l => l.inj.guideRate = 0)
        (leavesAll cs) (leavesAll cs') ws ws'
  | [], s, ws, h, hp, _, _, _ => by
    unfold shareInj
    exact ⟨_, s, ws, rfl, h, Outcome.refl hp (fun l hl => by simp [leavesAll] at hl)⟩
  | c :: cs, s, ws, h, hp, hg, hw, hgr => by
    simp only [leavesAll, groupsAll] at hp hg hw hgr ⊢
    unfold shareInj
    have e0 : c.injGuide true / my * amount * factor = ρ * c.injGuide false := by
      rw [injGuide_true c (fun l hl => hw l (List.mem_append_left _ hl)), mul_assoc, hρ]
      field_simp
    rw [fdiv_ok hmy, bind_ok, e0]
    obtain ⟨c', s1, ws1, e1, r1, o1⟩ := applyInj_unforced (J := J) hc hd ρ c h hp.left (fun l hl => hg l (List.mem_append_left _ hl))
      (fun l hl => hw l (List.mem_append_left _ hl)) (fun g hg => hgr g (List.mem_append_left _ hg))
    rw [e1, bind_ok]
    have hp1 : Placed ws1 (leavesAll cs) := hp.right.mono (fun l hl i hi =>
      o1.others i (fun l' hl' e => hp.disj hl' hl (by rw [hi, e])))
    have hg1 : InjGuided ws1 (leavesAll cs) := InjGuided.mono (fun l hl => hg l (List.mem_append_right _ hl)) o1.types
    obtain ⟨cs', s2, ws2, e2, r2, o2⟩ := shareInj_ok (J := J) hc hd hmy hρ cs r1 hp1 hg1
      (fun l hl => hw l (List.mem_append_right _ hl)) (fun g hg => hgr g (List.mem_append_right _ hg))
    simp only
    rw [e2, bind_ok]
    exact ⟨_, s2, ws2, rfl, r2, o1.append hp o2⟩

/-- What the topmost groups with an injection target ask of well `l`. -/
def InjAsk (np : Nat) (tops : List (InjSpec × List Node)) (l : Leaf) (t : CtrlType) (g : Rat) (d : List Rat) : Prop :=
  ∃ x ∈ tops, l ∈ leavesAll x.2 ∧ t = x.1.mode.ctrlType ∧ g = x.1.limit * l.inj.guideRate / injTotal (leavesAll x.2) ∧ d = List.replicate np 1

/-- Well `l` may be left alone. -/
def InjFree (tops : List (InjSpec × List Node)) (l : Leaf) : Prop := ∀ x ∈ tops, l ∈ leavesAll x.2 → l.inj.guideRate = 0

mutual
theorem injTops_leaves : ∀ (n : Node) x, x ∈ n.injTops → ∀ l ∈ leavesAll x.2, l ∈ n.leaves
  | .well _ _ _ _ _, x, h, _, _ => by simp [Node.injTops] at h
  | .group n p i cs, x, h, l, hl => by
    simp only [Node.injTops] at h
    simp only [Node.leaves]
    split at h
    · rw [List.mem_singleton] at h; subst h; exact hl
    · exact injTopsAll_leaves cs x h l hl
theorem injTopsAll_leaves : ∀ (cs : List Node) x, x ∈ injTopsAll cs → ∀ l ∈ leavesAll x.2, l ∈ leavesAll cs
  | [], x, h, _, _ => by simp [injTopsAll] at h
  | c :: cs, x, h, l, hl => by
    simp only [injTopsAll, List.mem_append] at h
    simp only [leavesAll, List.mem_append]
    rcases h with h | h
    · exact .inl (injTops_leaves c x h l hl)
    · exact .inr (injTopsAll_leaves cs x h l hl)
end

mutual
theorem injTops_unique {ws : List Well} : ∀ (n : Node), Placed ws n.leaves → ∀ x ∈ n.injTops, ∀ y ∈ n.injTops, ∀ l, l ∈ leavesAll x.2 → l ∈ leavesAll y.2 → x = y
  | .well _ _ _ _ _, _, x, h, _, _, _, _, _ => by simp [Node.injTops] at h
  | .group n p i cs, hp, x, hx, y, hy, l, hl, hl' => by
    simp only [Node.injTops] at hx hy
    simp only [Node.leaves] at hp
    split at hx
    · rename_i hc
      rw [if_pos hc] at hy
      rw [List.mem_singleton] at hx hy
      rw [hx, hy]
    · rename_i hc
      rw [if_neg hc] at hy
      exact injTopsAll_unique cs hp x hx y hy l hl hl'
theorem injTopsAll_unique {ws : List Well} : ∀ (cs : List Node), Placed ws (leavesAll cs) → ∀ x ∈ injTopsAll cs, ∀ y ∈ injTopsAll cs, ∀ l, l ∈ leavesAll x.2 → l ∈ leavesAll y.2 → x = y
  | [], _, x, h, _, _, _, _, _ => by simp [injTopsAll] at h
  | c :: cs, hp, x, hx, y, hy, l, hl, hl' => by
    simp only [injTopsAll, List.mem_append] at hx hy
    simp only [leavesAll] at hp
    rcases hx with hx | hx <;> rcases hy with hy | hy
    · exact injTops_unique c hp.left x hx y hy l hl hl'
    · exact absurd rfl (hp.disj (injTops_leaves c x hx l hl) (injTopsAll_leaves cs y hy l hl'))
    · exact absurd rfl (hp.disj (injTops_leaves c y hy l hl') (injTopsAll_leaves cs x hx l hl))
    · exact injTopsAll_unique cs hp.right x hx y hy l hl hl'
end

mutual
theorem applyInjControls_ok {J : Junk} {np : Nat} (h3 : np ≤ 3) : ∀ (n : Node) {s : W} {ws : List Well}, WRep np s ws →
    Placed ws n.leaves → InjGuided ws n.leaves → n.injPasses → (∀ x ∈ n.injTops, InjSharable x.2) →
    ∃ n' s' ws', n.applyInjControls J s = .ok (n', s') ∧ WRep np s' ws' ∧
      Outcome np .injector (InjAsk np n.injTops) (InjFree n.injTops) n.leaves n'.leaves ws ws'
  | .well n p i self gci, s, ws, h, hp, _, _, _ => by
    unfold Node.applyInjControls
    exact ⟨_, s, ws, rfl, h, Outcome.refl hp (fun l _ x hx => by simp [Node.injTops] at hx)⟩
  | .group n p i cs, s, ws, h, hp, hg, hpass, hsh => by
    simp only [Node.leaves, Node.injPasses, Node.injTops] at hp hg hpass hsh ⊢
    unfold Node.applyInjControls
    by_cases ht : i.mode.isTarget
    · rw [if_pos ht] at hsh ⊢
      unfold InjMode.isTarget at ht
      rw [if_pos ht]
      have sh := hsh (i, cs) (by simp)
      simp only at sh
      have htg : injTarget i i.mode = .ok i.limit := by
        unfold InjSpec.limit
        rcases ht with h | h <;> rw [h] <;> rfl
      have hc : injControl i.mode = .ok (i.mode.ctrlType, [1, 1, 1]) := by
        rcases ht with h | h <;> rw [h] <;> rfl
      have hmy : injGuides true cs = injTotal (leavesAll cs) := by rw [injGuides_true cs sh.wells, injGuides_false]
      have hmy0 : injTotal (leavesAll cs) ≠ 0 := sh.some
      rw [htg, bind_ok, hmy]
      obtain ⟨cs', s', ws', e, r, o⟩ := shareInj_ok (J := J) hc h3 hmy0
        (ρ := i.limit / injTotal (leavesAll cs)) (amount := i.limit) (factor := 1) (by field_simp) cs h hp hg sh.wells sh.groups
      rw [e, bind_ok]
      refine ⟨_, s', ws', rfl, r, ?_⟩
      simp only [Node.leaves]
      refine o.weaken ?_ ?_
      · rintro l hl t g d' ⟨rfl, rfl, rfl⟩
        exact ⟨(i, cs), by simp, hl, rfl, by simp only; ring, take_ones h3⟩
      · intro l _ h0 x _ _
        exact h0
    · rw [if_neg ht] at hsh ⊢
      obtain ⟨hm, hps⟩ := hpass.resolve_left ht
      unfold InjMode.isTarget at ht
      rw [if_neg ht, if_neg (by rcases hm with h | h <;> simp [h]), if_pos hm]
      obtain ⟨cs', s', ws', e, r, o⟩ := applyInjControlsAll_ok (J := J) h3 cs h hp hg hps hsh
      rw [e, bind_ok]
      exact ⟨_, s', ws', rfl, r, by simpa only [Node.leaves] using o⟩
theorem applyInjControlsAll_ok {J : Junk} {np : Nat} (h3 : np ≤ 3) : ∀ (cs : List Node) {s : W} {ws : List Well}, WRep np s ws →
    Placed ws (leavesAll cs) → InjGuided ws (leavesAll cs) → injPassesAll cs → (∀ x ∈ injTopsAll cs, InjSharable x.2) →
    ∃ cs' s' ws', applyInjControlsAll J cs s = .ok (cs', s') ∧ WRep np s' ws' ∧
      Outcome np .injector (InjAsk np (injTopsAll cs)) (InjFree (injTopsAll cs)) (leavesAll cs) (leavesAll cs') ws ws'
  | [], s, ws, h, hp, _, _, _ => by
    unfold applyInjControlsAll
    exact ⟨_, s, ws, rfl, h, Outcome.refl hp (fun l hl => by simp [leavesAll] at hl)⟩
  | c :: cs, s, ws, h, hp, hg, hpass, hsh => by
    simp only [leavesAll, injPassesAll, injTopsAll] at hp hg hpass hsh ⊢
    unfold applyInjControlsAll
    obtain ⟨c', s1, ws1, e1, r1, o1⟩ := applyInjControls_ok (J := J) h3 c h hp.left (fun l hl => hg l (List.mem_append_left _ hl)) hpass.1
      (fun x hx => hsh x (List.mem_append_left _ hx))
    rw [e1, bind_ok]
    have hp1 : Placed ws1 (leavesAll cs) := hp.right.mono (fun l hl i hi =>
      o1.others i (fun l' hl' e => hp.disj hl' hl (by rw [hi, e])))
    have hg1 : InjGuided ws1 (leavesAll cs) := InjGuided.mono (fun l hl => hg l (List.mem_append_right _ hl)) o1.types
    obtain ⟨cs', s2, ws2, e2, r2, o2⟩ := applyInjControlsAll_ok (J := J) h3 cs r1 hp1 hg1 hpass.2 (fun x hx => hsh x (List.mem_append_right _ hx))
    simp only
    rw [e2, bind_ok]
    refine ⟨_, s2, ws2, rfl, r2, ?_⟩
    simp only [leavesAll]
    refine (o1.weaken ?_ ?_).append hp (o2.weaken ?_ ?_)
    · rintro l _ t g d ⟨x, hx, hl⟩
      exact ⟨x, List.mem_append_left _ hx, hl⟩
    · intro l hl hf x hx hlx
      rcases List.mem_append.1 hx with hx | hx
      · exact hf x hx hlx
      · exact absurd rfl (hp.disj hl (injTopsAll_leaves cs x hx l hlx))
    · rintro l _ t g d ⟨x, hx, hl⟩
      exact ⟨x, List.mem_append_right _ hx, hl⟩
    · intro l hl hf x hx hlx
      rcases List.mem_append.1 hx with hx | hx
      · exact absurd rfl (hp.disj (injTops_leaves c x hx l hlx) hl)
      · exact hf x hx hlx
end

/-! ### Reinjection -/

mutual
theorem totalProduction_ok {pu : PhaseUsage} {flows : List Rat} {phase : Phase} {s : W} {ws : List Well} (h : WRep pu.num s ws)
    (hf : flows.length = pu.num * ws.length) (hpos : pu.pos phase < pu.num) : ∀ (n : Node), Placed ws n.leaves →
    n.totalProduction pu flows phase s = .ok (groupRate pu.num flows (typeOf ws) .producer n.leaves (pu.pos phase))
  | .well n p i self gci, hp => by
    simp only [Node.leaves] at hp ⊢
    obtain ⟨k, hk, w, hw, -⟩ := hp.exist ⟨p, i, self, gci⟩ (by simp)
    simp only at hk
    subst hk
    unfold Node.totalProduction
    rw [h.type_at hw, bind_ok]
    have hty : typeOf ws (k : Int) = w.type := by simp [typeOf, hw]
    have hlt := (List.getElem?_eq_some_iff.1 hw).1
    cases e : w.type
    · simp [groupRate, hty, e]
    · have hb : k * pu.num + pu.pos phase < flows.length := by
        rw [hf, mul_comm k]
        calc pu.num * k + pu.pos phase < pu.num * k + pu.num := by omega
          _ = pu.num * (k + 1) := by ring
          _ ≤ pu.num * ws.length := Nat.mul_le_mul_left _ hlt
      simp only [reduceCtorEq, if_false]
      rw [show ((k : Int) * (pu.num : Int) + (pu.pos phase : Int)) = ((k * pu.num + pu.pos phase : Nat) : Int) by push_cast; ring, rdI_natCast, rd_ok hb]
      simp [groupRate, hty, e, rateAt, List.getD_eq_getElem?_getD, mul_comm pu.num k, List.getElem?_eq_getElem hb]
  | .group n p i cs, hp => by
    simp only [Node.leaves] at hp ⊢
    unfold Node.totalProduction
    exact totalProductions_ok h hf hpos cs hp
theorem totalProductions_ok {pu : PhaseUsage} {flows : List Rat} {phase : Phase} {s : W} {ws : List Well} (h : WRep pu.num s ws)
    (hf : flows.length = pu.num * ws.length) (hpos : pu.pos phase < pu.num) : ∀ (cs : List Node), Placed ws (leavesAll cs) →
    totalProductions pu flows phase s cs = .ok (groupRate pu.num flows (typeOf ws) .producer (leavesAll cs) (pu.pos phase))
  | [], _ => by simp [totalProductions, leavesAll, groupRate]
  | c :: cs, hp => by
    simp only [leavesAll] at hp ⊢
    unfold totalProductions
    rw [totalProduction_ok h hf hpos c hp.left, bind_ok, totalProductions_ok h hf hpos cs hp.right, bind_ok]
    simp [groupRate, List.filter_append]
end

theorem pos_lt {pu : PhaseUsage} (hu : pu.Valid) {p : Phase} (h : pu.used p = true) : pu.pos p < pu.num := by
  obtain ⟨hl, p1, p2, p3, hn⟩ := phaseUsage_cases hu
  cases p
  · rw [p1]; have := hu.two; omega
  · rw [p2, hn]; omega
  · rw [p3, hn, h]; simp

theorem usedProduction_ok {pu : PhaseUsage} (hu : pu.Valid) {flows : List Rat} {phase : Phase} {s : W} {ws : List Well} (h : WRep pu.num s ws)
    (hf : flows.length = pu.num * ws.length) (cs : List Node) (hp : Placed ws (leavesAll cs)) :
    usedProduction pu flows s cs phase = .ok (if pu.used phase then groupRate pu.num flows (typeOf ws) .producer (leavesAll cs) (pu.pos phase) else 0) := by
  unfold usedProduction
  split
  · next h1 => exact totalProductions_ok h hf (pos_lt hu h1) cs hp
  · rfl

theorem voidage_ok {pu : PhaseUsage} (hu : pu.Valid) {flows : List Rat} {s : W} {ws : List Well} (h : WRep pu.num s ws)
    (hf : flows.length = pu.num * ws.length) (cs : List Node) (hp : Placed ws (leavesAll cs)) :
    voidage pu flows s cs = .ok (groupTotal pu.num flows (typeOf ws) .producer (leavesAll cs)) := by
  unfold voidage
  rw [usedProduction_ok hu h hf cs hp, bind_ok, usedProduction_ok hu h hf cs hp, bind_ok, usedProduction_ok hu h hf cs hp, bind_ok]
  obtain ⟨hl, p1, p2, p3, hn⟩ := phaseUsage_cases hu
  have h2 := hu.two
  unfold groupTotal
  congr 1
  cases h1 : pu.used .aqua <;> cases h3 : pu.used .vapour
  all_goals simp only [h1, h3, Bool.toNat_true, Bool.toNat_false] at p2 p3 hn
  all_goals first
    | omega
    | (rw [hn]; simp [hl, p1, p2, p3, List.range_succ]; try ring)

theorem InjectorType.phase_eq (t : InjectorType) : t.phase = t.fluid := by cases t <;> rfl

theorem applyReinjection_ok {J : Junk} {pu : PhaseUsage} (hu : pu.Valid) {res surf : List Rat} {nm : String} {p : ProdSpec} {i : InjSpec} {cs : List Node}
    {s : W} {ws : List Well} (h : WRep pu.num s ws) (hr : res.length = pu.num * ws.length) (hs : surf.length = pu.num * ws.length)
    (hp : Placed ws (leavesAll cs)) (hg : InjGuided ws (leavesAll cs)) (sh : InjSharable cs) (hm : i.mode = .rein ∨ i.mode = .vrep)
    (hav : i.mode = .rein → pu.used i.injectorType.fluid = true) :
    ∃ cs' s' ws', (Node.group nm p i cs).applyReinjection J pu res surf s = .ok (.group nm p i cs', s') ∧ WRep pu.num s' ws' ∧
      Outcome pu.num .injector (fun l t g d => t = i.mode.ctrlType' ∧ d = List.replicate pu.num 1 ∧
        g = i.reinjected pu res surf (typeOf ws) (leavesAll cs) * l.inj.guideRate / injTotal (leavesAll cs))
        (fun l => l.inj.guideRate = 0) (leavesAll cs) (leavesAll cs') ws ws' := by
  have hmy : injGuides true cs = injTotal (leavesAll cs) := by rw [injGuides_true cs sh.wells, injGuides_false]
  have hmy0 : injTotal (leavesAll cs) ≠ 0 := sh.some
  simp only [Node.applyReinjection]
  rcases hm with hm | hm
  · rw [if_pos hm, InjectorType.phase_eq, totalProductions_ok h hs (pos_lt hu (hav hm)) cs hp, bind_ok, hmy]
    obtain ⟨cs', s', ws', e, r, o⟩ := shareInj_ok (J := J) (m := .rate) rfl hu.three hmy0
      (ρ := -groupRate pu.num surf (typeOf ws) .producer (leavesAll cs) (pu.pos i.injectorType.fluid) * i.reinjectionFraction / injTotal (leavesAll cs))
      (amount := -groupRate pu.num surf (typeOf ws) .producer (leavesAll cs) (pu.pos i.injectorType.fluid)) (factor := i.reinjectionFraction)
      (by field_simp) cs h hp hg sh.wells sh.groups
    rw [e, bind_ok]
    refine ⟨cs', s', ws', rfl, r, o.weaken ?_ (fun _ _ h => h)⟩
    rintro l hl t g d' ⟨rfl, rfl, rfl⟩
    refine ⟨by rw [hm]; rfl, take_ones hu.three, ?_⟩
    unfold InjSpec.reinjected
    rw [if_pos hm]; ring
  · rw [if_neg (by simp [hm]), if_pos hm, voidage_ok hu h hr cs hp, bind_ok, hmy]
    obtain ⟨cs', s', ws', e, r, o⟩ := shareInj_ok (J := J) (m := .resv) rfl hu.three hmy0
      (ρ := -groupTotal pu.num res (typeOf ws) .producer (leavesAll cs) * i.voidageFraction / injTotal (leavesAll cs))
      (amount := -groupTotal pu.num res (typeOf ws) .producer (leavesAll cs)) (factor := i.voidageFraction)
      (by field_simp) cs h hp hg sh.wells sh.groups
    rw [e, bind_ok]
    refine ⟨cs', s', ws', rfl, r, o.weaken ?_ (fun _ _ h => h)⟩
    rintro l hl t g d' ⟨rfl, rfl, rfl⟩
    refine ⟨by rw [hm]; rfl, take_ones hu.three, ?_⟩
    unfold InjSpec.reinjected
    rw [if_neg (by simp [hm])]; ring

end Opm.Groups
