import Verif.Proofs.WellTreeShare
import Verif.Props.WellsManager
/-!
# Targets of groups in the trees of a deck
-/

namespace Opm.Manager
open Opm Wells Groups

theorem injModes_known {ph : List Phase} {l : WconinjeLine} (h : InjOk ph l) : ∃ m : InjMode, l.controlMode = m.keyword := by
  rcases h.mode with h | ⟨h, -⟩
  · unfold injLimits at h
    simp only [List.map_append, List.mem_append] at h
    rcases h with (h | h) | h
    · split at h <;> simp at h
      exact ⟨.rate, h⟩
    · split at h <;> simp at h
      exact ⟨.resv, h⟩
    · split at h <;> simp at h
      exact ⟨.bhp, h⟩
  · exact ⟨.grup, h⟩

theorem prodModes_known {ph : List Phase} {l : WconprodLine} (h : ProdOk ph l) : ∃ m : ProdMode, l.controlMode = m.keyword := by
  rcases h.mode with h | ⟨h, -⟩
  · unfold prodLimits at h
    simp only [List.map_append, List.mem_append] at h
    rcases h with ((((h | h) | h) | h) | h) | h
    · split at h <;> simp at h
      exact ⟨.orat, h⟩
    · split at h <;> simp at h
      exact ⟨.wrat, h⟩
    · split at h <;> simp at h
      exact ⟨.grat, h⟩
    · split at h <;> simp at h
      exact ⟨.lrat, h⟩
    · split at h <;> simp at h
      exact ⟨.resv, h⟩
    · split at h <;> simp at h
      exact ⟨.bhp, h⟩
  · exact ⟨.grup, h⟩

/-- The phase weights of a mode in a deck. -/
theorem weights_of_deck {water oil gas : Bool} {pu : PhaseUsage} (h : phaseUsageFromDeck water oil gas = .ok pu) (m : ProdMode) :
    weights pu m = weightsOf (phaseList water oil gas) m.phases := by
  cases water <;> cases oil <;> cases gas <;> simp [phaseUsageFromDeck] at h <;> subst h <;> cases m <;> decide +kernel

theorem keyword_target {s : String} (h : s ∈ ["ORAT", "WRAT", "LRAT", "RESV", "FLD", "NONE"]) {m : ProdMode} (e : m.keyword = s) : m.isTarget ∨ m = .fld ∨ m = .none := by
  subst e
  revert h
  cases m <;> decide +kernel

theorem keyword_target' {s : String} (h : s ∈ ["RATE", "RESV", "FLD", "NONE"]) {m : InjMode} (e : m.keyword = s) : m.isTarget ∨ m = .fld ∨ m = .none := by
  subst e
  revert h
  cases m <;> decide +kernel

theorem prodKeyword_inj {a b : ProdMode} (h : a.keyword = b.keyword) : a = b := by
  have := congrArg toProdMode h
  rw [toProdMode_keyword, toProdMode_keyword] at this
  cases this
  rfl

theorem injKeyword_inj {a b : InjMode} (h : a.keyword = b.keyword) : a = b := by
  have := congrArg toInjMode h
  rw [toInjMode_keyword, toInjMode_keyword] at this
  cases this
  rfl

theorem mem_prodTopsAll {x : ProdSpec × List Node} : ∀ {rs : List Node}, x ∈ prodTopsAll rs ↔ ∃ r ∈ rs, x ∈ r.prodTops
  | [] => by simp [prodTopsAll]
  | r :: rs => by simp [prodTopsAll, mem_prodTopsAll (rs := rs)]

theorem mem_injTopsAll {x : InjSpec × List Node} : ∀ {rs : List Node}, x ∈ injTopsAll rs ↔ ∃ r ∈ rs, x ∈ r.injTops
  | [] => by simp [injTopsAll]
  | r :: rs => by simp [injTopsAll, mem_injTopsAll (rs := rs)]

theorem sum_pos_of {ns : List String} {F : String → Rat} (h0 : ∀ n, 0 ≤ F n) {n : String} (hn : n ∈ ns) (h : F n ≠ 0) : (ns.map F).sum ≠ 0 := by
  have h1 : F n ≤ (ns.map F).sum := List.single_le_sum (by simpa using fun n _ => h0 n) _ (List.mem_map_of_mem hn)
  have h2 := lt_of_le_of_ne (h0 n) h.symm
  linarith

section
variable {dk : FieldDeck} {specs : List WelspecsLine} {rs : List Node}

/-- The groups with a target are those of the deck. -/
theorem Ready.prodTarget (h : Ready dk specs rs) {G : String} {p : ProdSpec} {i : InjSpec} {cs : List Node} (hG : Node.group G p i cs ∈ subsAll rs) (ht : p.mode.isTarget) :
    ∃ l, ProdTarget dk specs G l p.mode ∧ ∀ m : ProdMode, p.limit m = l.limit m := by
  obtain ⟨-, sp⟩ := h.groupSpec hG
  cases e : lastFor GconprodLine.group (dk.gconprod.getD []) G with
  | none =>
    rw [sp.prodNone e] at ht
    exact absurd ht (by decide)
  | some l => exact ⟨l, ⟨h.mem G (List.mem_map.2 ⟨_, hG, rfl⟩), e, (sp.prodSome l e).1.symm, ht⟩, (sp.prodSome l e).2⟩

theorem Ready.injTarget (h : Ready dk specs rs) {G : String} {p : ProdSpec} {i : InjSpec} {cs : List Node} (hG : Node.group G p i cs ∈ subsAll rs) (ht : i.mode.isTarget) :
    ∃ l, InjTarget dk specs G l i.mode ∧ i.limit = l.limit i.mode := by
  obtain ⟨-, sp⟩ := h.groupSpec hG
  cases e : lastFor GconinjeLine.group (dk.gconinje.getD []) G with
  | none =>
    rw [sp.injNone e] at ht
    exact absurd ht (by decide)
  | some l => exact ⟨l, ⟨h.mem G (List.mem_map.2 ⟨_, hG, rfl⟩), e, (sp.injSome l e).1.symm, ht⟩, (sp.injSome l e).2⟩

theorem Ready.prodModes (h : Ready dk specs rs) (hp : ProdSharing dk specs) {G : String} {p : ProdSpec} {i : InjSpec} {cs : List Node} (hG : Node.group G p i cs ∈ subsAll rs) :
    p.mode.isTarget ∨ p.mode = .fld ∨ p.mode = .none := by
  obtain ⟨-, sp⟩ := h.groupSpec hG
  cases e : lastFor GconprodLine.group (dk.gconprod.getD []) G with
  | none => exact .inr (.inr (sp.prodNone e))
  | some l => exact keyword_target (hp.modes l (lastFor_mem e).1) (sp.prodSome l e).1

theorem Ready.injModes (h : Ready dk specs rs) (hp : InjSharing dk specs) {G : String} {p : ProdSpec} {i : InjSpec} {cs : List Node} (hG : Node.group G p i cs ∈ subsAll rs) :
    i.mode.isTarget ∨ i.mode = .fld ∨ i.mode = .none := by
  obtain ⟨-, sp⟩ := h.groupSpec hG
  cases e : lastFor GconinjeLine.group (dk.gconinje.getD []) G with
  | none => exact .inr (.inr (sp.injNone e))
  | some l => exact keyword_target' (hp.modes l (lastFor_mem e).1) (sp.injSome l e).1

theorem subs_of_group {G : String} {p : ProdSpec} {i : InjSpec} {cs : List Node} (hG : Node.group G p i cs ∈ subsAll rs) : ∀ x ∈ subsAll cs, x ∈ subsAll rs :=
  fun x hx => subsAll_trans rs _ hG x (by simp only [Node.subs, List.mem_cons]; exact .inr hx)

mutual
/-- The nodes of a subtree are a sublist of those of the tree. -/
theorem node_sublist : ∀ (n : Node) {G : String} {p : ProdSpec} {i : InjSpec} {cs : List Node}, Node.group G p i cs ∈ n.subs → (subsAll cs).Sublist n.subs
  | .group n q j ds, G, p, i, cs, h => by
    simp only [Node.subs, List.mem_cons] at h ⊢
    rcases h with h | h
    · cases h
      exact List.sublist_cons_self _ _
    · exact (all_sublist ds h).trans (List.sublist_cons_self _ _)
  | .well n q j s g, G, p, i, cs, h => by simp [Node.subs] at h
theorem all_sublist : ∀ (rs : List Node) {G : String} {p : ProdSpec} {i : InjSpec} {cs : List Node}, Node.group G p i cs ∈ subsAll rs → (subsAll cs).Sublist (subsAll rs)
  | [], G, p, i, cs, h => by simp [subsAll] at h
  | r :: rs, G, p, i, cs, h => by
    simp only [subsAll, List.mem_append] at h ⊢
    rcases h with h | h
    · exact (node_sublist r h).trans (List.sublist_append_left _ _)
    · exact (all_sublist rs h).trans (List.sublist_append_right _ _)
end

theorem Ready.nodupBelow (h : Ready dk specs rs) {G : String} {p : ProdSpec} {i : InjSpec} {cs : List Node} (hG : Node.group G p i cs ∈ subsAll rs) : (namesAll cs).Nodup :=
  h.nodup.sublist ((all_sublist rs hG).map _)

theorem Ready.producersBelow (h : Ready dk specs rs) {G : String} {p : ProdSpec} {i : InjSpec} {cs : List Node} (hG : Node.group G p i cs ∈ subsAll rs) :
    ((namesAll cs).filter (fun n => Produces dk specs n)).Nodup ∧ ∀ n, n ∈ (namesAll cs).filter (fun n => Produces dk specs n) ↔ Produces dk specs n ∧ n ∈ namesAll cs :=
  ⟨(h.nodupBelow hG).filter _, fun n => by rw [List.mem_filter]; simp [and_comm]⟩

theorem Ready.injectorsBelow (h : Ready dk specs rs) {G : String} {p : ProdSpec} {i : InjSpec} {cs : List Node} (hG : Node.group G p i cs ∈ subsAll rs) :
    ((namesAll cs).filter (fun n => Injects dk specs n)).Nodup ∧ ∀ n, n ∈ (namesAll cs).filter (fun n => Injects dk specs n) ↔ Injects dk specs n ∧ n ∈ namesAll cs :=
  ⟨(h.nodupBelow hG).filter _, fun n => by rw [List.mem_filter]; simp [and_comm]⟩

theorem Ready.prodSharable (h : Ready dk specs rs) (hr : RecordsOk dk specs) (hp : ProdSharing dk specs) {G : String} {p : ProdSpec} {i : InjSpec} {cs : List Node}
    (hG : Node.group G p i cs ∈ subsAll rs) (ht : p.mode.isTarget) : ProdSharable cs := by
  obtain ⟨l, tg, -⟩ := h.prodTarget hG ht
  have hb := h.below hG
  have hs := subs_of_group hG
  refine ⟨?_, ?_, ?_⟩
  · obtain ⟨n, hn, hbe, hne⟩ := hp.guided G l _ tg
    obtain ⟨q1, q2⟩ := h.producersBelow hG
    rw [h.prodTotal_eq hs (h.nodupBelow hG) q1 q2]
    exact sum_pos_of (guideRate_nonneg hr) ((q2 n).2 ⟨hn, (hb n).2 hbe⟩) hne
  · intro lf hlf
    obtain ⟨k, n, hk, hnm, -, -, w⟩ := h.leaf hs hlf
    by_cases hpn : n ∈ prodNamesOf dk.base
    · by_cases hz : guideRate dk n = 0
      · right
        rw [w.prodGuide, if_pos hpn, guideAfter_eq, hz]
      · left
        obtain ⟨r, hr1, hr2⟩ := hp.wells G l _ tg n ⟨List.mem_of_getElem? hk, hpn⟩ ((hb n).1 hnm) hz
        have := w.prodMode r hr1
        rw [hr2] at this
        exact prodKeyword_inj (b := .grup) this
    · right
      rw [w.prodGuide, if_neg hpn]
  · intro x hx
    obtain ⟨nm, ds, hsub, -⟩ := all_groups cs x hx
    rcases h.prodModes hp (hs _ hsub) with h1 | h1
    · obtain ⟨l', tg', -⟩ := h.prodTarget (hs _ hsub) h1
      exact absurd ((hb nm).1 (List.mem_map.2 ⟨_, hsub, rfl⟩)) (hp.nested nm G l' l _ _ tg' tg)
    · exact h1

theorem Ready.injSharable (h : Ready dk specs rs) (hr : RecordsOk dk specs) (hp : InjSharing dk specs) {G : String} {p : ProdSpec} {i : InjSpec} {cs : List Node}
    (hG : Node.group G p i cs ∈ subsAll rs) (ht : i.mode.isTarget) : InjSharable cs := by
  obtain ⟨l, tg, -⟩ := h.injTarget hG ht
  have hb := h.below hG
  have hs := subs_of_group hG
  refine ⟨?_, ?_, ?_⟩
  · obtain ⟨n, hn, hbe, hne⟩ := hp.guided G l _ tg
    obtain ⟨q1, q2⟩ := h.injectorsBelow hG
    rw [h.injTotal_eq hs (h.nodupBelow hG) q1 q2]
    exact sum_pos_of (guideRate_nonneg hr) ((q2 n).2 ⟨hn, (hb n).2 hbe⟩) hne
  · intro lf hlf
    obtain ⟨k, n, hk, hnm, -, -, w⟩ := h.leaf hs hlf
    by_cases hpn : n ∈ injNamesOf dk.base
    · by_cases hz : guideRate dk n = 0
      · right
        rw [w.injGuide, if_pos hpn, guideAfter_eq, hz]
      · left
        obtain ⟨r, hr1, hr2⟩ := hp.wells G l _ tg n ⟨List.mem_of_getElem? hk, hpn⟩ ((hb n).1 hnm) hz
        have := w.injMode r hr1
        rw [hr2] at this
        exact injKeyword_inj (b := .grup) this
    · right
      rw [w.injGuide, if_neg hpn]
  · intro x hx
    obtain ⟨nm, ds, hsub, -⟩ := all_groups cs x hx
    rcases h.injModes hp (hs _ hsub) with h1 | h1
    · obtain ⟨l', tg', -⟩ := h.injTarget (hs _ hsub) h1
      exact absurd ((hb nm).1 (List.mem_map.2 ⟨_, hsub, rfl⟩)) (hp.nested nm G l' l _ _ tg' tg)
    · exact h1

/-- Every production target of the deck belongs to a group of the trees, and is a topmost one. -/
theorem Ready.prodTop (h : Ready dk specs rs) (hp : ProdSharing dk specs) {G : String} {l : GconprodLine} {m : ProdMode} (tg : ProdTarget dk specs G l m)
    (hw : G ∉ specs.map WelspecsLine.name) :
    ∃ p i cs, Node.group G p i cs ∈ subsAll rs ∧ p.mode = m ∧ p.limit m = l.limit m ∧ (p, cs) ∈ prodTopsAll rs := by
  have hmem : G ∈ namesAll rs := by
    obtain ⟨a, ha | ha⟩ := tg.group
    · exact (h.has ha).2
    · exact (h.has ha).1
  obtain ⟨n, hn, rfl⟩ := List.mem_map.1 hmem
  cases n with
  | well a b c d e =>
    rcases h.nodes _ (List.mem_map_of_mem (f := Node.label) hn) with ⟨-, h2, -⟩ | ⟨j, h2, -⟩
    · simp [Node.label] at h2
    · exact absurd (List.mem_of_getElem? h2) hw
  | group G p i cs =>
    simp only [Node.name] at *
    obtain ⟨-, sp⟩ := h.groupSpec hn
    obtain ⟨e1, e2⟩ := sp.prodSome l tg.record
    have em : p.mode = m := prodKeyword_inj (by rw [e1, tg.mode])
    refine ⟨p, i, cs, hn, em, e2 m, all_prodTops_mem (by rw [em]; exact tg.target) rs hn ?_⟩
    intro H q j ds hH hq hin
    obtain ⟨l', tg', -⟩ := h.prodTarget hH hq
    exact hp.nested G H l l' _ _ tg tg' ((h.below hH G).1 (List.mem_map.2 ⟨_, hin, rfl⟩))

theorem Ready.injTop (h : Ready dk specs rs) (hp : InjSharing dk specs) {G : String} {l : GconinjeLine} {m : InjMode} (tg : InjTarget dk specs G l m)
    (hw : G ∉ specs.map WelspecsLine.name) :
    ∃ p i cs, Node.group G p i cs ∈ subsAll rs ∧ i.mode = m ∧ i.limit = l.limit m ∧ (i, cs) ∈ injTopsAll rs := by
  have hmem : G ∈ namesAll rs := by
    obtain ⟨a, ha | ha⟩ := tg.group
    · exact (h.has ha).2
    · exact (h.has ha).1
  obtain ⟨n, hn, rfl⟩ := List.mem_map.1 hmem
  cases n with
  | well a b c d e =>
    rcases h.nodes _ (List.mem_map_of_mem (f := Node.label) hn) with ⟨-, h2, -⟩ | ⟨j, h2, -⟩
    · simp [Node.label] at h2
    · exact absurd (List.mem_of_getElem? h2) hw
  | group G p i cs =>
    simp only [Node.name] at *
    obtain ⟨-, sp⟩ := h.groupSpec hn
    obtain ⟨e1, e2⟩ := sp.injSome l tg.record
    have em : i.mode = m := injKeyword_inj (by rw [e1, tg.mode])
    refine ⟨p, i, cs, hn, em, by rw [e2, em], all_injTops_mem (by rw [em]; exact tg.target) rs hn ?_⟩
    intro H q j ds hH hq hin
    obtain ⟨l', tg', -⟩ := h.injTarget hH hq
    exact hp.nested G H l l' _ _ tg tg' ((h.below hH G).1 (List.mem_map.2 ⟨_, hin, rfl⟩))

end

/-- Leaves have different numbers. -/
theorem selves_nodup (names : List String) : ∀ Ls : List Label, (Ls.map Label.name).Nodup →
    (∀ L ∈ Ls, ∀ l, L.leaf = some l → ∃ k : Nat, l.self = k ∧ names[k]? = some L.name) → ((Ls.filterMap Label.leaf).map (·.self)).Nodup
  | [], _, _ => by simp
  | L :: Ls, hn, h => by
    rw [List.map_cons, List.nodup_cons] at hn
    have ih := selves_nodup names Ls hn.2 (fun L hL => h L (by simp [hL]))
    rw [List.filterMap_cons]
    cases e : L.leaf with
    | none => exact ih
    | some l =>
      rw [List.map_cons, List.nodup_cons]
      refine ⟨?_, ih⟩
      intro hm
      obtain ⟨l', hl', e'⟩ := List.mem_map.1 hm
      obtain ⟨L', hL', el'⟩ := List.mem_filterMap.1 hl'
      obtain ⟨k, k1, k2⟩ := h L (by simp) l e
      obtain ⟨k', k3, k4⟩ := h L' (by simp [hL']) l' el'
      have : k = k' := by omega
      subst this
      rw [k2] at k4
      exact hn.1 (List.mem_map.2 ⟨L', hL', by simpa using k4.symm⟩)

theorem Ready.selves {dk : FieldDeck} {specs : List WelspecsLine} {rs : List Node} (h : Ready dk specs rs) : ((leavesAll rs).map (·.self)).Nodup := by
  rw [all_leaves]
  refine selves_nodup (specs.map WelspecsLine.name) _ ?_ ?_
  · have e : ((subsAll rs).map Node.label).map Label.name = namesAll rs := (names_labels rs).symm
    rw [e]
    exact h.nodup
  · intro L hL l e
    obtain ⟨x, hx, rfl⟩ := List.mem_map.1 hL
    rcases h.nodes _ (List.mem_map_of_mem (f := Node.label) hx) with ⟨-, h1, -⟩ | ⟨i, h1, h2, h3⟩
    · unfold Label.leaf at e
      rw [h1] at e
      cases e
    · unfold Label.leaf at e
      rw [h2] at e
      cases e
      exact ⟨i, rfl, h1⟩

end Opm.Manager
