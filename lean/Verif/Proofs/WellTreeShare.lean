import Verif.Proofs.WellTreeGuide
import Verif.Props.WellsGroupCollection
/-!
# The group hierarchy of a deck: what `applyGroupControls` needs
-/

namespace Opm.Manager
open Opm Wells Groups

/-- The hierarchy of a deck, ready for `applyGroupControls`. -/
structure Ready (dk : FieldDeck) (specs : List WelspecsLine) (rs : List Node) : Prop where
  nodup : (namesAll rs).Nodup
  edges : ∀ a b, (a, b) ∈ edgesAll rs ↔ Member dk specs a b
  mem : ∀ x ∈ namesAll rs, ∃ a, Member dk specs a x ∨ Member dk specs x a
  nodes : ∀ L ∈ labelsAll rs, NodeNow dk specs (dk.wgrupcon.getD []) L

theorem guideAfter_eq (dk : FieldDeck) (n : String) : guideAfter (dk.wgrupcon.getD []) n = guideRate dk n := rfl

theorem guideRate_nonneg {dk : FieldDeck} {specs : List WelspecsLine} (hr : RecordsOk dk specs) (n : String) : 0 ≤ guideRate dk n := by
  unfold guideRate
  split
  · rename_i l e
    exact hr.positive l (lastFor_mem e).1
  · norm_num

section
variable {dk : FieldDeck} {specs : List WelspecsLine} {rs : List Node}

theorem Ready.below (h : Ready dk specs rs) {G : String} {p : ProdSpec} {i : InjSpec} {cs : List Node} (hG : Node.group G p i cs ∈ subsAll rs) (x : String) :
    x ∈ namesAll cs ↔ Below dk specs x G := by
  rw [below_iff h.nodup hG x]
  have : (fun a b => (a, b) ∈ edgesAll rs) = Member dk specs := by
    funext a b
    exact propext (h.edges a b)
  rw [this]
  rfl

/-- The names of the trees are the names of the deck. -/
theorem Ready.has (h : Ready dk specs rs) {a b : String} (hm : Member dk specs a b) : a ∈ namesAll rs ∧ b ∈ namesAll rs := by
  obtain ⟨p, i, ds, hG, c, hc, rfl⟩ := (all_edges rs a b).1 ((h.edges a b).2 hm)
  refine ⟨List.mem_map_of_mem (subsAll_trans rs _ hG c ?_), List.mem_map.2 ⟨_, hG, rfl⟩⟩
  simp only [Node.subs, List.mem_cons]
  exact .inr (mem_subsAll.2 ⟨c, hc, self_mem_subs c⟩)

/-- Groups of the trees. -/
theorem Ready.groupSpec (h : Ready dk specs rs) {G : String} {p : ProdSpec} {i : InjSpec} {cs : List Node} (hG : Node.group G p i cs ∈ subsAll rs) :
    G ∉ specs.map WelspecsLine.name ∧ GroupSpec dk G p i := by
  rcases h.nodes _ (List.mem_map_of_mem (f := Node.label) hG) with ⟨h1, -, h2⟩ | ⟨j, -, h2, -⟩
  · exact ⟨h1, h2⟩
  · simp [Node.label] at h2

/-- Wells below a list of nodes of the trees. -/
theorem Ready.leaf (h : Ready dk specs rs) {cs : List Node} (hs : ∀ x ∈ subsAll cs, x ∈ subsAll rs) {l : Leaf} (hl : l ∈ leavesAll cs) :
    ∃ (i : Nat) (n : String), (specs.map WelspecsLine.name)[i]? = some n ∧ n ∈ namesAll cs ∧ l.self = i ∧ l.gci = -1 ∧ WellNow dk (dk.wgrupcon.getD []) n l.prod l.inj := by
  rw [all_leaves] at hl
  obtain ⟨L, hL, e⟩ := List.mem_filterMap.1 hl
  obtain ⟨x, hx, rfl⟩ := List.mem_map.1 hL
  rcases h.nodes _ (List.mem_map_of_mem (f := Node.label) (hs x hx)) with ⟨-, h1, -⟩ | ⟨i, h1, h2, h3⟩
  · unfold Label.leaf at e
    rw [h1] at e
    cases e
  · unfold Label.leaf at e
    rw [h2] at e
    cases e
    exact ⟨i, _, h1, by rw [label_name]; exact List.mem_map_of_mem hx, rfl, rfl, h3⟩

/-- A well below a list of nodes is a leaf. -/
theorem Ready.leaf_of (h : Ready dk specs rs) {cs : List Node} (hs : ∀ x ∈ subsAll cs, x ∈ subsAll rs) {i : Nat} {n : String} (hd : (specs.map WelspecsLine.name).Nodup)
    (hi : (specs.map WelspecsLine.name)[i]? = some n) (hn : n ∈ namesAll cs) : ∃ l ∈ leavesAll cs, l.self = i ∧ WellNow dk (dk.wgrupcon.getD []) n l.prod l.inj := by
  obtain ⟨x, hx, rfl⟩ := List.mem_map.1 hn
  rcases h.nodes _ (List.mem_map_of_mem (f := Node.label) (hs x hx)) with ⟨h1, -, -⟩ | ⟨j, h1, h2, h3⟩
  · rw [label_name] at h1
    exact absurd (List.mem_of_getElem? hi) h1
  · rw [label_name] at h1 h3
    have hij : j = i := by
      have a1 := (List.getElem?_eq_some_iff.1 hi).1
      have a2 := (List.getElem?_eq_some_iff.1 h1).1
      exact (List.Nodup.getElem_inj_iff hd (hi := a2) (hj := a1)).1 (by rw [(List.getElem?_eq_some_iff.1 hi).2, (List.getElem?_eq_some_iff.1 h1).2])
    refine ⟨⟨x.label.prod, x.label.inj, j, -1⟩, ?_, by rw [hij], h3⟩
    rw [all_leaves]
    refine List.mem_filterMap.2 ⟨x.label, List.mem_map_of_mem hx, ?_⟩
    unfold Label.leaf
    rw [h2]
    rfl

/-- Sums over wells. -/
theorem sum_leaves (v : Leaf → Rat) (F : String → Rat) : ∀ Ls : List Label, (∀ L ∈ Ls, (L.leaf = none ∧ F L.name = 0) ∨ ∃ l, L.leaf = some l ∧ v l = F L.name) →
    ((Ls.filterMap Label.leaf).map v).sum = ((Ls.map Label.name).map F).sum
  | [], _ => by simp
  | L :: Ls, h => by
    have ih := sum_leaves v F Ls (fun L hL => h L (by simp [hL]))
    rcases h L (by simp) with ⟨h1, h2⟩ | ⟨l, h1, h2⟩
    · rw [List.filterMap_cons, h1]
      simp [ih, h2]
    · rw [List.filterMap_cons, h1]
      simp [ih, h2]

theorem sum_filter (F : String → Rat) (q : String → Bool) : ∀ ns : List String, (ns.map (fun n => if q n then F n else 0)).sum = ((ns.filter q).map F).sum
  | [] => by simp
  | n :: ns => by
    rw [List.map_cons, List.sum_cons, sum_filter F q ns, List.filter_cons]
    by_cases h : q n = true
    · simp [h]
    · simp [h]

theorem Ready.prodTotal_eq (h : Ready dk specs rs) {cs : List Node} (hs : ∀ x ∈ subsAll cs, x ∈ subsAll rs) (hc : (namesAll cs).Nodup) {ns : List String}
    (hn : ns.Nodup) (hm : ∀ n, n ∈ ns ↔ Produces dk specs n ∧ n ∈ namesAll cs) : prodTotal (leavesAll cs) = (ns.map (guideRate dk)).sum := by
  unfold prodTotal
  rw [all_leaves, sum_leaves _ (fun n => if decide (Produces dk specs n) then guideRate dk n else 0), sum_filter (guideRate dk)]
  · have e : ((subsAll cs).map Node.label).map Label.name = namesAll cs := (names_labels cs).symm
    rw [e]
    refine List.Perm.sum_eq (List.Perm.map _ ((List.perm_ext_iff_of_nodup (hc.filter _) hn).2 (fun n => ?_)))
    rw [hm, List.mem_filter]
    simp [and_comm]
  · intro L hL
    obtain ⟨x, hx, rfl⟩ := List.mem_map.1 hL
    rcases h.nodes _ (List.mem_map_of_mem (f := Node.label) (hs x hx)) with ⟨h1, h2, -⟩ | ⟨i, h1, h2, h3⟩
    · left
      refine ⟨by simp [Label.leaf, h2], ?_⟩
      have hno : ¬Produces dk specs x.label.name := fun hp => h1 hp.1
      simp [hno]
    · right
      refine ⟨_, by unfold Label.leaf; rw [h2]; rfl, ?_⟩
      simp only
      rw [h3.prodGuide, guideAfter_eq]
      by_cases hp : x.label.name ∈ prodNamesOf dk.base
      · have : Produces dk specs x.label.name := ⟨List.mem_of_getElem? h1, hp⟩
        simp [hp, this]
      · have : ¬Produces dk specs x.label.name := fun h => hp h.2
        rw [if_neg hp]
        simp [this]

theorem Ready.injTotal_eq (h : Ready dk specs rs) {cs : List Node} (hs : ∀ x ∈ subsAll cs, x ∈ subsAll rs) (hc : (namesAll cs).Nodup) {ns : List String}
    (hn : ns.Nodup) (hm : ∀ n, n ∈ ns ↔ Injects dk specs n ∧ n ∈ namesAll cs) : injTotal (leavesAll cs) = (ns.map (guideRate dk)).sum := by
  unfold injTotal
  rw [all_leaves, sum_leaves _ (fun n => if decide (Injects dk specs n) then guideRate dk n else 0), sum_filter (guideRate dk)]
  · have e : ((subsAll cs).map Node.label).map Label.name = namesAll cs := (names_labels cs).symm
    rw [e]
    refine List.Perm.sum_eq (List.Perm.map _ ((List.perm_ext_iff_of_nodup (hc.filter _) hn).2 (fun n => ?_)))
    rw [hm, List.mem_filter]
    simp [and_comm]
  · intro L hL
    obtain ⟨x, hx, rfl⟩ := List.mem_map.1 hL
    rcases h.nodes _ (List.mem_map_of_mem (f := Node.label) (hs x hx)) with ⟨h1, h2, -⟩ | ⟨i, h1, h2, h3⟩
    · left
      refine ⟨by simp [Label.leaf, h2], ?_⟩
      have hno : ¬Injects dk specs x.label.name := fun hp => h1 hp.1
      simp [hno]
    · right
      refine ⟨_, by unfold Label.leaf; rw [h2]; rfl, ?_⟩
      simp only
      rw [h3.injGuide, guideAfter_eq]
      by_cases hp : x.label.name ∈ injNamesOf dk.base
      · have : Injects dk specs x.label.name := ⟨List.mem_of_getElem? h1, hp⟩
        simp [hp, this]
      · have : ¬Injects dk specs x.label.name := fun h => hp h.2
        rw [if_neg hp]
        simp [this]

end

end Opm.Manager
