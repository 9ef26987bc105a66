import Verif.Model.WellTree
import Verif.Spec.WellsGroup
import Mathlib.Data.List.Nodup
import Mathlib.Data.List.Perm.Basic
import Mathlib.Data.List.Perm.Lattice
/-!
# The group hierarchy of a deck: trees as lists of names, edges and labels
-/

namespace Opm.Manager
open Opm Wells Groups

mutual
/-- All nodes of a tree. -/
def _root_.Opm.Groups.Node.subs : Node → List Node
  | .group n p i cs => .group n p i cs :: subsAll cs
  | .well n p i s g => [.well n p i s g]
def subsAll : List Node → List Node
  | [] => []
  | c :: cs => c.subs ++ subsAll cs
end

mutual
/-- The pairs of child and parent. -/
def _root_.Opm.Groups.Node.edges : Node → List (String × String)
  | .group n _ _ cs => cs.map (fun c => (c.name, n)) ++ edgesAll cs
  | .well _ _ _ _ _ => []
def edgesAll : List Node → List (String × String)
  | [] => []
  | c :: cs => c.edges ++ edgesAll cs
end

/-- Name, specifications, and the number if it is a well. -/
structure Label where
  name : String
  prod : ProdSpec
  inj : InjSpec
  self : Option (Int × Int)

def _root_.Opm.Groups.Node.label : Node → Label
  | .group n p i _ => ⟨n, p, i, none⟩
  | .well n p i s g => ⟨n, p, i, some (s, g)⟩

def labelsAll (rs : List Node) : List Label := (subsAll rs).map Node.label
def namesAll (rs : List Node) : List String := (subsAll rs).map Node.name

theorem label_name (n : Node) : n.label.name = n.name := by cases n <;> rfl

theorem names_labels (rs : List Node) : namesAll rs = (labelsAll rs).map Label.name := by
  simp [namesAll, labelsAll, Function.comp_def, label_name]

theorem subsAll_append (a b : List Node) : subsAll (a ++ b) = subsAll a ++ subsAll b := by
  induction a with
  | nil => simp [subsAll]
  | cons x a ih => simp [subsAll, ih]

theorem edgesAll_append (a b : List Node) : edgesAll (a ++ b) = edgesAll a ++ edgesAll b := by
  induction a with
  | nil => simp [edgesAll]
  | cons x a ih => simp [edgesAll, ih]

theorem self_mem_subs (n : Node) : n ∈ n.subs := by cases n <;> simp [Node.subs]

theorem mem_subsAll {n : Node} : ∀ {rs : List Node}, n ∈ subsAll rs ↔ ∃ r ∈ rs, n ∈ r.subs
  | [] => by simp [subsAll]
  | r :: rs => by simp [subsAll, mem_subsAll (rs := rs)]

theorem subs_eq (n : Node) : ∃ t, n.subs = n :: t := by cases n <;> simp [Node.subs]

theorem subs_perm {a b : List Node} (h : a.Perm b) : (subsAll a).Perm (subsAll b) := by
  induction h with
  | nil => exact .nil
  | cons x _ ih => exact List.Perm.append_left _ ih
  | swap x y l =>
    simp only [subsAll, ← List.append_assoc]
    exact List.Perm.append_right _ List.perm_append_comm
  | trans _ _ ih1 ih2 => exact ih1.trans ih2

theorem edges_perm {a b : List Node} (h : a.Perm b) : (edgesAll a).Perm (edgesAll b) := by
  induction h with
  | nil => exact .nil
  | cons x _ ih => exact List.Perm.append_left _ ih
  | swap x y l =>
    simp only [edgesAll, ← List.append_assoc]
    exact List.Perm.append_right _ List.perm_append_comm
  | trans _ _ ih1 ih2 => exact ih1.trans ih2

/-! ### Names are roots and children -/

mutual
theorem node_names : ∀ n : Node, (n.subs.map Node.name).Perm (n.name :: n.edges.map Prod.fst)
  | .group n p i cs => by
    simp only [Node.subs, Node.edges, List.map_cons, List.map_append, List.map_map]
    exact List.Perm.cons _ (all_names cs)
  | .well n p i s g => by simp [Node.subs, Node.edges, Node.name]
theorem all_names : ∀ cs : List Node, ((subsAll cs).map Node.name).Perm (cs.map Node.name ++ (edgesAll cs).map Prod.fst)
  | [] => by simp [subsAll, edgesAll]
  | c :: cs => by
    simp only [subsAll, edgesAll, List.map_append, List.map_cons, List.cons_append]
    refine ((node_names c).append (all_names cs)).trans ?_
    rw [List.cons_append]
    refine List.Perm.cons _ ?_
    rw [← List.append_assoc, ← List.append_assoc]
    exact List.Perm.append_right _ List.perm_append_comm
end

mutual
theorem node_edges : ∀ (n : Node) (a b : String), (a, b) ∈ n.edges ↔ ∃ p i cs, Node.group b p i cs ∈ n.subs ∧ ∃ c ∈ cs, c.name = a
  | .group n p i cs, a, b => by
    simp only [Node.edges, Node.subs, List.mem_append, List.mem_map, Prod.mk.injEq, all_edges cs a b, List.mem_cons]
    constructor
    · rintro (⟨c, hc, rfl, rfl⟩ | ⟨p', i', cs', h, c, hc, e⟩)
      · exact ⟨p, i, cs, .inl rfl, c, hc, rfl⟩
      · exact ⟨p', i', cs', .inr h, c, hc, e⟩
    · rintro ⟨p', i', cs', h | h, c, hc, e⟩
      · cases h
        exact .inl ⟨c, hc, e, rfl⟩
      · exact .inr ⟨p', i', cs', h, c, hc, e⟩
  | .well n p i s g, a, b => by simp [Node.edges, Node.subs]
theorem all_edges : ∀ (cs : List Node) (a b : String), (a, b) ∈ edgesAll cs ↔ ∃ p i ds, Node.group b p i ds ∈ subsAll cs ∧ ∃ c ∈ ds, c.name = a
  | [], a, b => by simp [edgesAll, subsAll]
  | c :: cs, a, b => by
    simp only [edgesAll, subsAll, List.mem_append, node_edges c a b, all_edges cs a b]
    constructor
    · rintro (⟨p, i, ds, h, e⟩ | ⟨p, i, ds, h, e⟩)
      · exact ⟨p, i, ds, .inl h, e⟩
      · exact ⟨p, i, ds, .inr h, e⟩
    · rintro ⟨p, i, ds, h | h, e⟩
      · exact .inl ⟨p, i, ds, h, e⟩
      · exact .inr ⟨p, i, ds, h, e⟩
end

mutual
/-- The nodes below a node of a tree are nodes of the tree. -/
theorem subs_trans : ∀ (n m : Node), m ∈ n.subs → ∀ x ∈ m.subs, x ∈ n.subs
  | .group n p i cs, m, hm, x, hx => by
    simp only [Node.subs, List.mem_cons] at hm
    rcases hm with rfl | hm
    · exact hx
    · simp only [Node.subs, List.mem_cons]
      exact .inr (subsAll_trans cs m hm x hx)
  | .well n p i s g, m, hm, x, hx => by
    simp only [Node.subs, List.mem_singleton] at hm
    subst hm
    exact hx
theorem subsAll_trans : ∀ (cs : List Node) (m : Node), m ∈ subsAll cs → ∀ x ∈ m.subs, x ∈ subsAll cs
  | c :: cs, m, hm, x, hx => by
    simp only [subsAll, List.mem_append] at hm ⊢
    rcases hm with hm | hm
    · exact .inl (subs_trans c m hm x hx)
    · exact .inr (subsAll_trans cs m hm x hx)
end

/-- In a tree whose names are different, a node is determined by its name. -/
theorem node_unique {rs : List Node} (hn : (namesAll rs).Nodup) {a b : Node} (ha : a ∈ subsAll rs) (hb : b ∈ subsAll rs) (h : a.name = b.name) : a = b :=
  List.inj_on_of_nodup_map hn ha hb h

/-! ### Finding -/

mutual
theorem findGroup_none (nm : String) : ∀ n : Node, n.findGroup nm = none ↔ nm ∉ n.subs.map Node.name
  | .group n p i cs => by
    unfold Node.findGroup
    by_cases h : n = nm
    · simp [h, Node.subs, Node.name]
    · rw [if_neg h, findNode_none nm cs]
      simp only [Node.subs, List.map_cons, Node.name, List.mem_cons, not_or, namesAll]
      tauto
  | .well n p i s g => by
    unfold Node.findGroup
    by_cases h : n = nm
    · simp [h, Node.subs, Node.name]
    · rw [if_neg h]
      simp only [Node.subs, List.map_cons, Node.name, List.map_nil, List.mem_singleton, true_iff]
      exact fun h' => h h'.symm
theorem findNode_none (nm : String) : ∀ rs : List Node, findNode nm rs = none ↔ nm ∉ namesAll rs
  | [] => by simp [findNode, namesAll, subsAll]
  | c :: cs => by
    unfold findNode
    simp only [namesAll, subsAll, List.map_append, List.mem_append, not_or]
    cases h : c.findGroup nm with
    | some r =>
      simp only [reduceCtorEq, false_iff, not_and_or, not_not]
      left
      by_contra h'
      rw [← findGroup_none nm c, h] at h'
      cases h'
    | none =>
      have h1 := (findGroup_none nm c).1 h
      have h2 := findNode_none nm cs
      simp only [namesAll] at h2
      simp only [h2]
      exact ⟨fun h => ⟨h1, h⟩, fun h => h.2⟩
end

mutual
theorem findGroup_some {nm : String} {r : Node} : ∀ n : Node, n.findGroup nm = some r → r ∈ n.subs ∧ r.name = nm
  | .group n p i cs, h => by
    unfold Node.findGroup at h
    split at h
    · cases h
      exact ⟨self_mem_subs _, by assumption⟩
    · obtain ⟨h1, h2⟩ := findNode_some cs h
      exact ⟨by simp only [Node.subs, List.mem_cons]; exact .inr h1, h2⟩
  | .well n p i s g, h => by
    unfold Node.findGroup at h
    split at h
    · cases h
      exact ⟨self_mem_subs _, by assumption⟩
    · cases h
theorem findNode_some {nm : String} {r : Node} : ∀ rs : List Node, findNode nm rs = some r → r ∈ subsAll rs ∧ r.name = nm
  | [], h => by cases h
  | c :: cs, h => by
    unfold findNode at h
    simp only [subsAll, List.mem_append]
    split at h
    · rename_i x hx
      cases h
      obtain ⟨h1, h2⟩ := findGroup_some c hx
      exact ⟨.inl h1, h2⟩
    · obtain ⟨h1, h2⟩ := findNode_some cs h
      exact ⟨.inr h1, h2⟩
end

/-- Finding, if names are different. -/
theorem findNode_eq {rs : List Node} (hn : (namesAll rs).Nodup) {n : Node} (h : n ∈ subsAll rs) : findNode n.name rs = some n := by
  cases e : findNode n.name rs with
  | none => exact absurd (List.mem_map_of_mem h) ((findNode_none _ _).1 e)
  | some r =>
    obtain ⟨h1, h2⟩ := findNode_some rs e
    rw [node_unique hn h1 h h2]

/-! ### Pushing -/

mutual
theorem pushNode_none (nm : String) (ch : Node) : ∀ n : Node, nm ∉ n.subs.map Node.name → pushNode nm ch n = none
  | .group n p i cs, h => by
    simp only [Node.subs, List.map_cons, List.mem_cons, not_or, Node.name] at h
    unfold pushNode
    rw [if_neg (fun e => h.1 e.symm), pushIn_none nm ch cs h.2]
    rfl
  | .well n p i s g, h => rfl
theorem pushIn_none (nm : String) (ch : Node) : ∀ rs : List Node, nm ∉ (subsAll rs).map Node.name → pushIn nm ch rs = none
  | [], h => rfl
  | c :: cs, h => by
    simp only [subsAll, List.map_append, List.mem_append, not_or] at h
    unfold pushIn
    rw [pushNode_none nm ch c h.1]
    simp only
    rw [pushIn_none nm ch cs h.2]
    rfl
end

/-- The effect of appending a child to the group `nm`. -/
structure Pushed (nm : String) (ch : Node) (rs rs' : List Node) : Prop where
  roots : rs'.map Node.name = rs.map Node.name
  labels : (labelsAll rs').Perm (labelsAll rs ++ ch.subs.map Node.label)
  edges : (edgesAll rs').Perm ((ch.name, nm) :: (edgesAll rs ++ ch.edges))

mutual
theorem pushNode_ok (nm : String) (ch : Node) : ∀ n : Node, (n.subs.map Node.name).Nodup → (∃ p i cs, Node.group nm p i cs ∈ n.subs) →
    ∃ n', pushNode nm ch n = some n' ∧ Pushed nm ch [n] [n']
  | .group n p i cs, hn, ⟨p', i', cs', h⟩ => by
    unfold pushNode
    by_cases e : n = nm
    · rw [if_pos e]
      refine ⟨_, rfl, by simp [Node.name], ?_, ?_⟩
      · simp only [labelsAll, subsAll, Node.subs, subsAll_append, List.append_nil, List.map_append, List.map_cons, List.cons_append]
        exact List.Perm.refl _
      · subst e
        simp only [edgesAll, Node.edges, edgesAll_append, List.append_nil, List.map_append, List.map_cons, List.map_nil, List.append_assoc, List.cons_append, List.nil_append]
        exact List.perm_middle
    · rw [if_neg e]
      simp only [Node.subs, List.map_cons, List.nodup_cons] at hn
      obtain ⟨cs1, e1, k⟩ := pushIn_ok nm ch cs hn.2 ⟨p', i', cs', by
        simp only [Node.subs, List.mem_cons] at h
        rcases h with h | h
        · cases h
          exact absurd rfl e
        · exact h⟩
      rw [e1]
      refine ⟨_, rfl, by simp [Node.name], ?_, ?_⟩
      · simp only [labelsAll, subsAll, Node.subs, List.append_nil, List.map_cons, List.cons_append]
        exact List.Perm.cons _ k.labels
      · simp only [edgesAll, Node.edges, List.append_nil]
        have hmap : cs1.map (fun c => (c.name, n)) = cs.map (fun c => (c.name, n)) := by
          have := congrArg (List.map (fun x => (x, n))) k.roots
          simpa [Function.comp_def] using this
        rw [hmap, List.append_assoc]
        refine (List.Perm.append_left _ k.edges).trans ?_
        exact List.perm_middle
  | .well n p i s g, hn, ⟨p', i', cs', h⟩ => by simp [Node.subs] at h
theorem pushIn_ok (nm : String) (ch : Node) : ∀ rs : List Node, ((subsAll rs).map Node.name).Nodup → (∃ p i cs, Node.group nm p i cs ∈ subsAll rs) →
    ∃ rs', pushIn nm ch rs = some rs' ∧ Pushed nm ch rs rs'
  | [], hn, ⟨p', i', cs', h⟩ => by simp [subsAll] at h
  | c :: cs, hn, ⟨p', i', cs', h⟩ => by
    simp only [subsAll, List.map_append, List.nodup_append] at hn
    simp only [subsAll, List.mem_append] at h
    unfold pushIn
    rcases h with h | h
    · obtain ⟨c', e, k⟩ := pushNode_ok nm ch c hn.1 ⟨p', i', cs', h⟩
      rw [e]
      refine ⟨_, rfl, ?_, ?_, ?_⟩
      · have := k.roots
        simpa using this
      · have := k.labels
        simp only [labelsAll, subsAll, List.append_nil, List.map_append] at this ⊢
        refine (List.Perm.append_right _ this).trans ?_
        rw [List.append_assoc, List.append_assoc]
        exact List.Perm.append_left _ List.perm_append_comm
      · have := k.edges
        simp only [edgesAll, List.append_nil] at this ⊢
        refine (List.Perm.append_right _ this).trans ?_
        rw [List.cons_append]
        refine List.Perm.cons _ ?_
        rw [List.append_assoc, List.append_assoc]
        exact List.Perm.append_left _ List.perm_append_comm
    · have h0 : nm ∉ c.subs.map Node.name := fun h' => hn.2.2 nm h' nm (List.mem_map.2 ⟨_, h, rfl⟩) rfl
      rw [pushNode_none nm ch c h0]
      simp only
      obtain ⟨cs1, e, k⟩ := pushIn_ok nm ch cs hn.2.1 ⟨p', i', cs', h⟩
      rw [e]
      refine ⟨_, rfl, by simp [k.roots], ?_, ?_⟩
      · have := k.labels
        simp only [labelsAll, subsAll, List.map_append] at this ⊢
        rw [List.append_assoc]
        exact List.Perm.append_left _ this
      · have := k.edges
        simp only [edgesAll] at this ⊢
        refine (List.Perm.append_left _ this).trans ?_
        rw [List.append_assoc]
        exact List.perm_middle
end

end Opm.Manager
