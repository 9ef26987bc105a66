import Verif.Proofs.WellsGroupShare
import Verif.Proofs.WellsGroupCheck
/-!
# Collections of trees: the production pass does not disturb what the injection pass reads
-/

namespace Opm.Groups
open Opm Wells

mutual
/-- The part of a tree that injection controls depend on. -/
def Node.injView : Node → Node
  | .group n _ i cs => .group n {} i (injViewAll cs)
  | .well n _ i self _ => .well n {} i self 0
def injViewAll : List Node → List Node
  | [] => []
  | c :: cs => c.injView :: injViewAll cs
end

mutual
theorem applyProd_view {J : Junk} {pu : PhaseUsage} {m : ProdMode} : ∀ (n : Node) (t : Rat) (f : Bool) (s : W) r, n.applyProd J pu m t f s = .ok r →
    r.1.injView = n.injView
  | .well n p i self gci, t, f, s, r, h => by
    unfold Node.applyProd at h
    split_ifs at h
    · cases h; rfl
    · obtain ⟨a, -, h⟩ := bind_eq_ok.1 h
      cases h; rfl
  | .group n p i cs, t, f, s, r, h => by
    unfold Node.applyProd at h
    split_ifs at h
    · cases h; rfl
    · obtain ⟨a, ha, h⟩ := bind_eq_ok.1 h
      cases h
      simp only [Node.injView]
      rw [applyProdAll_view cs _ _ _ _ _ ha]
    · cases h; rfl
theorem applyProdAll_view {J : Junk} {pu : PhaseUsage} {m : ProdMode} : ∀ (cs : List Node) (t my : Rat) (o : Bool) (s : W) r,
    applyProdAll J pu m cs t my o s = .ok r → injViewAll r.1 = injViewAll cs
  | [], t, my, o, s, r, h => by
    unfold applyProdAll at h
    cases h; rfl
  | c :: cs, t, my, o, s, r, h => by
    unfold applyProdAll at h
    obtain ⟨a, ha, h⟩ := bind_eq_ok.1 h
    obtain ⟨b, hb, h⟩ := bind_eq_ok.1 h
    cases h
    simp only [injViewAll]
    rw [applyProd_view c _ _ _ _ ha, applyProdAll_view cs _ _ _ _ _ hb]
end

theorem shareProd_view {J : Junk} {pu : PhaseUsage} {m : ProdMode} {my t : Rat} : ∀ (cs : List Node) (s : W) r,
    shareProd J pu m my t cs s = .ok r → injViewAll r.1 = injViewAll cs
  | [], s, r, h => by
    unfold shareProd at h
    cases h; rfl
  | c :: cs, s, r, h => by
    unfold shareProd at h
    obtain ⟨a, ha, h⟩ := bind_eq_ok.1 h
    obtain ⟨b, hb, h⟩ := bind_eq_ok.1 h
    cases h
    simp only [injViewAll]
    rw [applyProd_view c _ _ _ _ ha, shareProd_view cs _ _ hb]

theorem groupShareProd_view {J : Junk} {pu : PhaseUsage} {p : ProdSpec} {cs : List Node} {s : W} {r : List Node × W}
    (h : groupShareProd J pu p cs s = .ok r) : injViewAll r.1 = injViewAll cs := by
  unfold groupShareProd at h
  split_ifs at h
  obtain ⟨a, -, h⟩ := bind_eq_ok.1 h
  exact shareProd_view _ _ _ h

mutual
theorem applyProdControls_view {J : Junk} {pu : PhaseUsage} : ∀ (n : Node) (s : W) r, n.applyProdControls J pu s = .ok r → r.1.injView = n.injView
  | .well n p i self gci, s, r, h => by
    unfold Node.applyProdControls at h
    cases h; rfl
  | .group n p i cs, s, r, h => by
    unfold Node.applyProdControls at h
    split_ifs at h
    · obtain ⟨a, ha, h⟩ := bind_eq_ok.1 h
      cases h
      simp only [Node.injView]
      rw [groupShareProd_view ha]
    · obtain ⟨a, ha, h⟩ := bind_eq_ok.1 h
      cases h
      simp only [Node.injView]
      rw [applyProdControlsAll_view cs _ _ ha]
theorem applyProdControlsAll_view {J : Junk} {pu : PhaseUsage} : ∀ (cs : List Node) (s : W) r, applyProdControlsAll J pu cs s = .ok r →
    injViewAll r.1 = injViewAll cs
  | [], s, r, h => by
    unfold applyProdControlsAll at h
    cases h; rfl
  | c :: cs, s, r, h => by
    unfold applyProdControlsAll at h
    obtain ⟨a, ha, h⟩ := bind_eq_ok.1 h
    obtain ⟨b, hb, h⟩ := bind_eq_ok.1 h
    cases h
    simp only [injViewAll]
    rw [applyProdControls_view c _ _ ha, applyProdControlsAll_view cs _ _ hb]
end

/-- The part of a well that injection controls depend on. -/
def Leaf.injView (l : Leaf) : InjSpec × Int := (l.inj, l.self)

mutual
theorem leaves_view : ∀ n : Node, n.injView.leaves.map Leaf.injView = n.leaves.map Leaf.injView
  | .well _ _ _ _ _ => rfl
  | .group _ _ _ cs => by simp only [Node.injView, Node.leaves]; exact leavesAll_view cs
theorem leavesAll_view : ∀ cs : List Node, (leavesAll (injViewAll cs)).map Leaf.injView = (leavesAll cs).map Leaf.injView
  | [] => rfl
  | c :: cs => by simp only [injViewAll, leavesAll, List.map_append, leaves_view c, leavesAll_view cs]
end

mutual
theorem groups_view : ∀ n : Node, n.injView.groups.map (fun g => g.2.1) = n.groups.map (fun g => g.2.1)
  | .well _ _ _ _ _ => rfl
  | .group _ _ _ cs => by simp only [Node.injView, Node.groups, List.map_cons, groupsAll_view cs]
theorem groupsAll_view : ∀ cs : List Node, (groupsAll (injViewAll cs)).map (fun g => g.2.1) = (groupsAll cs).map (fun g => g.2.1)
  | [] => rfl
  | c :: cs => by simp only [injViewAll, groupsAll, List.map_append, groups_view c, groupsAll_view cs]
end

mutual
theorem injPasses_view : ∀ n : Node, n.injView.injPasses ↔ n.injPasses
  | .well _ _ _ _ _ => Iff.rfl
  | .group _ _ _ cs => by simp only [Node.injView, Node.injPasses, injPassesAll_view cs]
theorem injPassesAll_view : ∀ cs : List Node, injPassesAll (injViewAll cs) ↔ injPassesAll cs
  | [] => Iff.rfl
  | c :: cs => by simp only [injViewAll, injPassesAll, injPasses_view c, injPassesAll_view cs]
end

mutual
theorem injTops_view : ∀ n : Node, n.injView.injTops = n.injTops.map (fun x => (x.1, injViewAll x.2))
  | .well _ _ _ _ _ => rfl
  | .group _ _ i cs => by
    simp only [Node.injView, Node.injTops]
    split_ifs
    · rfl
    · exact injTopsAll_view cs
theorem injTopsAll_view : ∀ cs : List Node, injTopsAll (injViewAll cs) = (injTopsAll cs).map (fun x => (x.1, injViewAll x.2))
  | [] => rfl
  | c :: cs => by simp only [injViewAll, injTopsAll, injTops_view c, injTopsAll_view cs, List.map_append]
end

theorem injTotal_view (ls ls' : List Leaf) (h : ls'.map Leaf.injView = ls.map Leaf.injView) : injTotal ls' = injTotal ls := by
  unfold injTotal
  have : ∀ l : List Leaf, l.map (fun l => l.inj.guideRate) = (l.map Leaf.injView).map (fun x => x.1.guideRate) := fun l => by simp [Leaf.injView]
  rw [this ls', h, ← this ls]

theorem mem_view {ls ls' : List Leaf} (h : ls'.map Leaf.injView = ls.map Leaf.injView) {l : Leaf} (hl : l ∈ ls) : ∃ l' ∈ ls', l'.inj = l.inj ∧ l'.self = l.self := by
  have : Leaf.injView l ∈ ls'.map Leaf.injView := by rw [h]; exact List.mem_map_of_mem hl
  obtain ⟨l', hl', e⟩ := List.mem_map.1 this
  simp only [Leaf.injView, Prod.mk.injEq] at e
  exact ⟨l', hl', e.1, e.2⟩

/-- Two trees with the same view. -/
theorem leavesAll_same {cs cs' : List Node} (h : injViewAll cs' = injViewAll cs) : (leavesAll cs').map Leaf.injView = (leavesAll cs).map Leaf.injView := by
  rw [← leavesAll_view cs', h, leavesAll_view]

theorem injSharable_same {cs cs' : List Node} (h : injViewAll cs' = injViewAll cs) (sh : InjSharable cs) : InjSharable cs' := by
  have hl := leavesAll_same h
  refine ⟨?_, ?_, ?_⟩
  · rw [injTotal_view _ _ hl]; exact sh.some
  · intro l hm
    obtain ⟨l', hl', e, -⟩ := mem_view hl.symm hm
    rw [← e]
    exact sh.wells l' hl'
  · intro g hg
    have hgs : (groupsAll cs').map (fun g => g.2.1) = (groupsAll cs).map (fun g => g.2.1) := by rw [← groupsAll_view cs', h, groupsAll_view]
    have : g.2.1 ∈ (groupsAll cs).map (fun g => g.2.1) := by rw [← hgs]; exact List.mem_map_of_mem hg
    obtain ⟨g', hg', e⟩ := List.mem_map.1 this
    rw [← e]
    exact sh.groups g' hg'

theorem injPasses_same {n n' : Node} (h : n'.injView = n.injView) (hp : n.injPasses) : n'.injPasses := by
  rw [← injPasses_view, h, injPasses_view]; exact hp

/-- Corresponding groups with an injection target. -/
theorem injTops_same {n n' : Node} (h : n'.injView = n.injView) {x : InjSpec × List Node} (hx : x ∈ n.injTops) :
    ∃ x' ∈ n'.injTops, x'.1 = x.1 ∧ injViewAll x'.2 = injViewAll x.2 := by
  have e : n'.injTops.map (fun x => (x.1, injViewAll x.2)) = n.injTops.map (fun x => (x.1, injViewAll x.2)) := by
    rw [← injTops_view, h, injTops_view]
  have : (x.1, injViewAll x.2) ∈ n'.injTops.map (fun x => (x.1, injViewAll x.2)) := by
    rw [e]; exact List.mem_map_of_mem (f := fun x : InjSpec × List Node => (x.1, injViewAll x.2)) hx
  obtain ⟨x', hx', ex⟩ := List.mem_map.1 this
  simp only [Prod.mk.injEq] at ex
  exact ⟨x', hx', ex.1, ex.2⟩

theorem InjGuided.same {ws : List Well} {ls ls' : List Leaf} (h : ls'.map Leaf.fixed = ls.map Leaf.fixed) (hg : InjGuided ws ls) : InjGuided ws ls' := by
  intro l hl
  have : Leaf.fixed l ∈ ls.map Leaf.fixed := by rw [← h]; exact List.mem_map_of_mem hl
  obtain ⟨l', hl', e⟩ := List.mem_map.1 this
  simp only [Leaf.fixed, Prod.mk.injEq] at e
  have := hg l' hl'
  rw [e.2.1, e.2.2] at this
  exact this

theorem typeOf_same {ws ws' : List Well} (ht : ∀ i : Nat, (ws'[i]?).map Well.type = (ws[i]?).map Well.type) (i : Int) : typeOf ws' i = typeOf ws i := by
  unfold typeOf
  rw [ht]

/-- The check of a collection. -/
theorem collectionConditionsMet_ok {J : Junk} {pu : PhaseUsage} (hu : pu.Valid) {bhp res surf : List Rat} {s : W} {ws : List Well} (h : WRep pu.num s ws)
    (hb : bhp.length = ws.length) (hr : res.length = pu.num * ws.length) (hs : surf.length = pu.num * ws.length) : ∀ (rs : List Node),
    Placed ws (leavesAll rs) → (∀ g ∈ groupsAll rs, g.1.Sane pu) →
    (AllOk pu bhp res surf ws (leavesAll rs) (groupsAll rs) → collectionConditionsMet J pu bhp res surf rs s = .ok (true, rs, s)) ∧
    (¬AllOk pu bhp res surf ws (leavesAll rs) (groupsAll rs) → ∀ r, collectionConditionsMet J pu bhp res surf rs s = .ok r → r.1 = false)
  | [], _, _ => ⟨fun _ => rfl, fun hn => absurd ⟨by simp [leavesAll], by simp [groupsAll]⟩ hn⟩
  | n :: rs, hp, hsane => by
    simp only [leavesAll, groupsAll] at hp hsane ⊢
    obtain ⟨h1, h2, -⟩ := conditionsMet_ok (J := J) hu h hb hr hs n hp.left (fun g hg => hsane g (List.mem_append_left _ hg))
    obtain ⟨i1, i2⟩ := collectionConditionsMet_ok hu h hb hr hs rs hp.right (fun g hg => hsane g (List.mem_append_right _ hg)) (J := J)
    have split : AllOk pu bhp res surf ws (n.leaves ++ leavesAll rs) (n.groups ++ groupsAll rs) ↔
        AllOk pu bhp res surf ws n.leaves n.groups ∧ AllOk pu bhp res surf ws (leavesAll rs) (groupsAll rs) := by
      unfold AllOk
      simp only [List.mem_append, or_imp, forall_and]
      tauto
    unfold collectionConditionsMet
    constructor
    · intro ok
      obtain ⟨o1, o2⟩ := split.1 ok
      simp only [h1 o1, bind_ok, Bool.not_true, Bool.false_eq_true, if_false, i1 o2]
    · intro bad r hr
      by_cases o1 : AllOk pu bhp res surf ws n.leaves n.groups
      · have o2 : ¬AllOk pu bhp res surf ws (leavesAll rs) (groupsAll rs) := fun o2 => bad (split.2 ⟨o1, o2⟩)
        simp only [h1 o1, bind_ok, Bool.not_true, Bool.false_eq_true, if_false] at hr
        obtain ⟨b, hb, hr⟩ := bind_eq_ok.1 hr
        cases hr
        exact i2 o2 b hb
      · obtain ⟨a, ha, hr⟩ := bind_eq_ok.1 hr
        have := h2 o1 a ha
        simp only [this, Bool.not_false, if_true] at hr
        cases hr
        rfl

end Opm.Groups
