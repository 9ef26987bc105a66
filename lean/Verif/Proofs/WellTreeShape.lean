import Verif.Proofs.WellTreeDeck
/-!
# The group hierarchy of a deck: wells and groups below a group
-/

namespace Opm.Manager
open Opm Wells Groups

/-! ### Leaves as labels -/

/-- A label of a well as a leaf. -/
def Label.leaf (L : Label) : Option Leaf := L.self.map (fun x => ⟨L.prod, L.inj, x.1, x.2⟩)

mutual
theorem node_leaves : ∀ n : Node, n.leaves = (n.subs.map Node.label).filterMap Label.leaf
  | .group n p i cs => by
    simp only [Node.leaves, Node.subs, List.map_cons, List.filterMap_cons, Label.leaf, Node.label, Option.map_none]
    exact all_leaves cs
  | .well n p i s g => by simp [Node.leaves, Node.subs, Node.label, Label.leaf]
theorem all_leaves : ∀ cs : List Node, leavesAll cs = ((subsAll cs).map Node.label).filterMap Label.leaf
  | [] => rfl
  | c :: cs => by
    simp only [leavesAll, subsAll, List.map_append, List.filterMap_append]
    rw [node_leaves c, all_leaves cs]
end

mutual
theorem node_groups : ∀ n : Node, ∀ x ∈ n.groups, ∃ nm cs, Node.group nm x.1 x.2.1 cs ∈ n.subs ∧ x.2.2 = leavesAll cs
  | .group n p i cs, x, hx => by
    simp only [Node.groups, List.mem_cons] at hx
    rcases hx with rfl | hx
    · exact ⟨n, cs, self_mem_subs _, rfl⟩
    · obtain ⟨nm, ds, h, e⟩ := all_groups cs x hx
      exact ⟨nm, ds, by simp only [Node.subs, List.mem_cons]; exact .inr h, e⟩
  | .well n p i s g, x, hx => by simp [Node.groups] at hx
theorem all_groups : ∀ cs : List Node, ∀ x ∈ groupsAll cs, ∃ nm ds, Node.group nm x.1 x.2.1 ds ∈ subsAll cs ∧ x.2.2 = leavesAll ds
  | [], x, hx => by simp [groupsAll] at hx
  | c :: cs, x, hx => by
    simp only [groupsAll, List.mem_append] at hx
    simp only [subsAll, List.mem_append]
    rcases hx with hx | hx
    · obtain ⟨nm, ds, h, e⟩ := node_groups c x hx
      exact ⟨nm, ds, .inl h, e⟩
    · obtain ⟨nm, ds, h, e⟩ := all_groups cs x hx
      exact ⟨nm, ds, .inr h, e⟩
end

/-! ### Guide rates -/

/-- The change of a label. -/
def Label.respec (i : Nat) (f : ProdSpec × InjSpec → ProdSpec × InjSpec) (L : Label) : Label :=
  if (L.self.map Prod.fst) = some (i : Int) then { L with prod := (f (L.prod, L.inj)).1, inj := (f (L.prod, L.inj)).2 } else L

theorem respec_name (i : Nat) (f : ProdSpec × InjSpec → ProdSpec × InjSpec) (n : Node) : (n.respec i f).name = n.name := by
  cases n with
  | group => rfl
  | well nm p q s g =>
    unfold Node.respec
    split <;> rfl

theorem map_respecAll (i : Nat) (f : ProdSpec × InjSpec → ProdSpec × InjSpec) (cs : List Node) : respecAll i f cs = cs.map (Node.respec i f) := by
  induction cs with
  | nil => rfl
  | cons c cs ih => rw [List.map_cons, ← ih]; rfl

mutual
theorem node_respec (i : Nat) (f : ProdSpec × InjSpec → ProdSpec × InjSpec) : ∀ n : Node,
    (n.respec i f).subs.map Node.label = (n.subs.map Node.label).map (Label.respec i f) ∧ (n.respec i f).edges = n.edges
  | .group n p q cs => by
    obtain ⟨h1, h2⟩ := all_respec i f cs
    unfold Node.respec
    refine ⟨?_, ?_⟩
    · simp only [Node.subs, List.map_cons]
      rw [h1]
      rfl
    · simp only [Node.edges]
      rw [h2, map_respecAll, List.map_map]
      congr 2
      funext c
      simp only [Function.comp, respec_name]
  | .well n p q s g => by
    unfold Node.respec
    split
    · rename_i h
      refine ⟨?_, rfl⟩
      simp [Node.subs, Node.label, Label.respec, h]
    · rename_i h
      refine ⟨?_, rfl⟩
      simp [Node.subs, Node.label, Label.respec, h]
theorem all_respec (i : Nat) (f : ProdSpec × InjSpec → ProdSpec × InjSpec) : ∀ cs : List Node,
    (subsAll (respecAll i f cs)).map Node.label = ((subsAll cs).map Node.label).map (Label.respec i f) ∧ edgesAll (respecAll i f cs) = edgesAll cs
  | [] => ⟨rfl, rfl⟩
  | c :: cs => by
    obtain ⟨h1, h2⟩ := node_respec i f c
    obtain ⟨h3, h4⟩ := all_respec i f cs
    unfold respecAll
    simp only [subsAll, edgesAll, List.map_append]
    exact ⟨by rw [h1, h3], by rw [h2, h4]⟩
end

theorem labels_respec (i : Nat) (f : ProdSpec × InjSpec → ProdSpec × InjSpec) (rs : List Node) :
    labelsAll (respecAll i f rs) = (labelsAll rs).map (Label.respec i f) := (all_respec i f rs).1

theorem names_respec (i : Nat) (f : ProdSpec × InjSpec → ProdSpec × InjSpec) (rs : List Node) : namesAll (respecAll i f rs) = namesAll rs := by
  rw [names_labels, names_labels, labels_respec, List.map_map]
  congr 1
  funext L
  simp only [Function.comp, Label.respec]
  split <;> rfl

/-! ### Names below a group -/

/-- Nodes below a group are those that are reached through the edges. -/
theorem below_iff {rs : List Node} (hn : (namesAll rs).Nodup) {G : String} {p : ProdSpec} {i : InjSpec} {cs : List Node} (hG : Node.group G p i cs ∈ subsAll rs)
    (x : String) : x ∈ namesAll cs ↔ Relation.TransGen (fun a b => (a, b) ∈ edgesAll rs) x G := by
  constructor
  · -- downwards
    have key : ∀ (m : Nat) (G : String) (p : ProdSpec) (i : InjSpec) (cs : List Node), sizeOf cs < m → Node.group G p i cs ∈ subsAll rs → ∀ x ∈ namesAll cs,
        Relation.TransGen (fun a b => (a, b) ∈ edgesAll rs) x G := by
      intro m
      induction m with
      | zero => intro G p i cs h; omega
      | succ m ih =>
        intro G p i cs hsz hG x hx
        obtain ⟨n, hnn, rfl⟩ := List.mem_map.1 hx
        obtain ⟨c, hc, hnc⟩ := mem_subsAll.1 hnn
        have he : (c.name, G) ∈ edgesAll rs := (all_edges rs _ _).2 ⟨p, i, cs, hG, c, hc, rfl⟩
        have hcr : c ∈ subsAll rs := by
          have : c ∈ (Node.group G p i cs).subs := by
            simp only [Node.subs, List.mem_cons]
            exact .inr (mem_subsAll.2 ⟨c, hc, self_mem_subs c⟩)
          exact subsAll_trans rs _ hG c this
        cases c with
        | well a b d e f =>
          simp only [Node.subs, List.mem_singleton] at hnc
          subst hnc
          exact .single he
        | group a b d ds =>
          simp only [Node.subs, List.mem_cons] at hnc
          rcases hnc with rfl | hnc
          · exact .single he
          · have hlt : sizeOf ds < m := by
              have := List.sizeOf_lt_of_mem hc
              simp only [Node.group.sizeOf_spec] at this
              omega
            exact (ih a b d ds hlt hcr n.name (List.mem_map_of_mem hnc)).tail he
    exact key _ G p i cs (Nat.lt_succ_self _) hG x
  · -- upwards
    have step : ∀ a b, (a, b) ∈ edgesAll rs → (b = G ∨ b ∈ namesAll cs) → a ∈ namesAll cs := by
      intro a b he hb
      obtain ⟨p', i', ds, hM, c, hc, rfl⟩ := (all_edges rs a b).1 he
      rcases hb with rfl | hb
      · have := node_unique hn hM hG rfl
        cases this
        exact List.mem_map_of_mem (mem_subsAll.2 ⟨c, hc, self_mem_subs c⟩)
      · obtain ⟨M, hM', e⟩ := List.mem_map.1 hb
        have hMr : M ∈ subsAll rs := subsAll_trans rs _ hG M (by simp only [Node.subs, List.mem_cons]; exact .inr hM')
        have := node_unique hn hM hMr e.symm
        subst this
        refine List.mem_map_of_mem (subsAll_trans cs _ hM' c ?_)
        simp only [Node.subs, List.mem_cons]
        exact .inr (mem_subsAll.2 ⟨c, hc, self_mem_subs c⟩)
    intro h
    induction h using Relation.TransGen.head_induction_on with
    | single h => exact step _ _ h (.inl rfl)
    | head h _ ih => exact step _ _ h (.inr ih)

/-! ### Topmost targets -/

mutual
theorem node_prodTops : ∀ n : Node, ∀ x ∈ n.prodTops, x.1.mode.isTarget ∧ ∃ G i, Node.group G x.1 i x.2 ∈ n.subs
  | .group n p i cs, x, hx => by
    unfold Node.prodTops at hx
    split at hx
    · simp only [List.mem_singleton] at hx
      subst hx
      exact ⟨by assumption, n, i, self_mem_subs _⟩
    · obtain ⟨h1, G, j, h2⟩ := all_prodTops cs x hx
      exact ⟨h1, G, j, by simp only [Node.subs, List.mem_cons]; exact .inr h2⟩
  | .well n p i s g, x, hx => by simp [Node.prodTops] at hx
theorem all_prodTops : ∀ cs : List Node, ∀ x ∈ prodTopsAll cs, x.1.mode.isTarget ∧ ∃ G i, Node.group G x.1 i x.2 ∈ subsAll cs
  | [], x, hx => by simp [prodTopsAll] at hx
  | c :: cs, x, hx => by
    simp only [prodTopsAll, List.mem_append] at hx
    simp only [subsAll, List.mem_append]
    rcases hx with hx | hx
    · obtain ⟨h1, G, j, h2⟩ := node_prodTops c x hx
      exact ⟨h1, G, j, .inl h2⟩
    · obtain ⟨h1, G, j, h2⟩ := all_prodTops cs x hx
      exact ⟨h1, G, j, .inr h2⟩
end

mutual
theorem node_prodTops_mem {G : String} {p : ProdSpec} {i : InjSpec} {cs : List Node} (ht : p.mode.isTarget) : ∀ n : Node, Node.group G p i cs ∈ n.subs →
    (∀ H q j ds, Node.group H q j ds ∈ n.subs → q.mode.isTarget → Node.group G p i cs ∉ subsAll ds) → (p, cs) ∈ n.prodTops
  | .group n q j ds, hm, hno => by
    unfold Node.prodTops
    simp only [Node.subs, List.mem_cons] at hm hno
    rcases hm with hm | hm
    · cases hm
      rw [if_pos ht]
      simp
    · rw [if_neg (fun hq => hno n q j ds (.inl rfl) hq hm)]
      exact all_prodTops_mem ht ds hm (fun H q' j' ds' h => hno H q' j' ds' (.inr h))
  | .well n p i s g, hm, hno => by simp [Node.subs] at hm
theorem all_prodTops_mem {G : String} {p : ProdSpec} {i : InjSpec} {cs : List Node} (ht : p.mode.isTarget) : ∀ rs : List Node, Node.group G p i cs ∈ subsAll rs →
    (∀ H q j ds, Node.group H q j ds ∈ subsAll rs → q.mode.isTarget → Node.group G p i cs ∉ subsAll ds) → (p, cs) ∈ prodTopsAll rs
  | [], hm, hno => by simp [subsAll] at hm
  | c :: rs, hm, hno => by
    simp only [subsAll, List.mem_append] at hm hno
    simp only [prodTopsAll, List.mem_append]
    rcases hm with hm | hm
    · exact .inl (node_prodTops_mem ht c hm (fun H q j ds h => hno H q j ds (.inl h)))
    · exact .inr (all_prodTops_mem ht rs hm (fun H q j ds h => hno H q j ds (.inr h)))
end

mutual
theorem node_prodPasses : ∀ n : Node, (∀ G p i cs, Node.group G p i cs ∈ n.subs → p.mode.isTarget ∨ p.mode = .fld ∨ p.mode = .none) → n.prodPasses
  | .group n p i cs, h => by
    unfold Node.prodPasses
    rcases h n p i cs (self_mem_subs _) with h1 | h1
    · exact .inl h1
    · exact .inr ⟨h1, all_prodPasses cs (fun G p i ds hd => h G p i ds (by simp only [Node.subs, List.mem_cons]; exact .inr hd))⟩
  | .well n p i s g, h => trivial
theorem all_prodPasses : ∀ cs : List Node, (∀ G p i ds, Node.group G p i ds ∈ subsAll cs → p.mode.isTarget ∨ p.mode = .fld ∨ p.mode = .none) → prodPassesAll cs
  | [], h => trivial
  | c :: cs, h => ⟨node_prodPasses c (fun G p i ds hd => h G p i ds (by simp only [subsAll, List.mem_append]; exact .inl hd)),
      all_prodPasses cs (fun G p i ds hd => h G p i ds (by simp only [subsAll, List.mem_append]; exact .inr hd))⟩
end

mutual
theorem node_injTops : ∀ n : Node, ∀ x ∈ n.injTops, x.1.mode.isTarget ∧ ∃ G p, Node.group G p x.1 x.2 ∈ n.subs
  | .group n p i cs, x, hx => by
    unfold Node.injTops at hx
    split at hx
    · simp only [List.mem_singleton] at hx
      subst hx
      exact ⟨by assumption, n, p, self_mem_subs _⟩
    · obtain ⟨h1, G, j, h2⟩ := all_injTops cs x hx
      exact ⟨h1, G, j, by simp only [Node.subs, List.mem_cons]; exact .inr h2⟩
  | .well n p i s g, x, hx => by simp [Node.injTops] at hx
theorem all_injTops : ∀ cs : List Node, ∀ x ∈ injTopsAll cs, x.1.mode.isTarget ∧ ∃ G p, Node.group G p x.1 x.2 ∈ subsAll cs
  | [], x, hx => by simp [injTopsAll] at hx
  | c :: cs, x, hx => by
    simp only [injTopsAll, List.mem_append] at hx
    simp only [subsAll, List.mem_append]
    rcases hx with hx | hx
    · obtain ⟨h1, G, j, h2⟩ := node_injTops c x hx
      exact ⟨h1, G, j, .inl h2⟩
    · obtain ⟨h1, G, j, h2⟩ := all_injTops cs x hx
      exact ⟨h1, G, j, .inr h2⟩
end

mutual
theorem node_injTops_mem {G : String} {p : ProdSpec} {i : InjSpec} {cs : List Node} (ht : i.mode.isTarget) : ∀ n : Node, Node.group G p i cs ∈ n.subs →
    (∀ H q j ds, Node.group H q j ds ∈ n.subs → j.mode.isTarget → Node.group G p i cs ∉ subsAll ds) → (i, cs) ∈ n.injTops
  | .group n q j ds, hm, hno => by
    unfold Node.injTops
    simp only [Node.subs, List.mem_cons] at hm hno
    rcases hm with hm | hm
    · cases hm
      rw [if_pos ht]
      simp
    · rw [if_neg (fun hq => hno n q j ds (.inl rfl) hq hm)]
      exact all_injTops_mem ht ds hm (fun H q' j' ds' h => hno H q' j' ds' (.inr h))
  | .well n p i s g, hm, hno => by simp [Node.subs] at hm
theorem all_injTops_mem {G : String} {p : ProdSpec} {i : InjSpec} {cs : List Node} (ht : i.mode.isTarget) : ∀ rs : List Node, Node.group G p i cs ∈ subsAll rs →
    (∀ H q j ds, Node.group H q j ds ∈ subsAll rs → j.mode.isTarget → Node.group G p i cs ∉ subsAll ds) → (i, cs) ∈ injTopsAll rs
  | [], hm, hno => by simp [subsAll] at hm
  | c :: rs, hm, hno => by
    simp only [subsAll, List.mem_append] at hm hno
    simp only [injTopsAll, List.mem_append]
    rcases hm with hm | hm
    · exact .inl (node_injTops_mem ht c hm (fun H q j ds h => hno H q j ds (.inl h)))
    · exact .inr (all_injTops_mem ht rs hm (fun H q j ds h => hno H q j ds (.inr h)))
end

mutual
theorem node_injPasses : ∀ n : Node, (∀ G p i cs, Node.group G p i cs ∈ n.subs → i.mode.isTarget ∨ i.mode = .fld ∨ i.mode = .none) → n.injPasses
  | .group n p i cs, h => by
    unfold Node.injPasses
    rcases h n p i cs (self_mem_subs _) with h1 | h1
    · exact .inl h1
    · exact .inr ⟨h1, all_injPasses cs (fun G p i ds hd => h G p i ds (by simp only [Node.subs, List.mem_cons]; exact .inr hd))⟩
  | .well n p i s g, h => trivial
theorem all_injPasses : ∀ cs : List Node, (∀ G p i ds, Node.group G p i ds ∈ subsAll cs → i.mode.isTarget ∨ i.mode = .fld ∨ i.mode = .none) → injPassesAll cs
  | [], h => trivial
  | c :: cs, h => ⟨node_injPasses c (fun G p i ds hd => h G p i ds (by simp only [subsAll, List.mem_append]; exact .inl hd)),
      all_injPasses cs (fun G p i ds hd => h G p i ds (by simp only [subsAll, List.mem_append]; exact .inr hd))⟩
end

end Opm.Manager
