import Verif.Proofs.WellTree
/-!
# The group hierarchy of a deck: the calls of `addChild`
-/

namespace Opm.Manager
open Opm Wells Groups

/-- The wells of a deck. -/
def isWell (dk : FieldDeck) (n : String) : Bool := decide (n ∈ (dk.base.welspecs.getD []).map WelspecsLine.name)

theorem createNode_shape {dk : FieldDeck} {nm : String} {s : Nat} {n : Node} (h : createNode dk nm s = .ok n) :
    n.name = nm ∧ n.subs = [n] ∧ n.edges = [] ∧ n.isLeaf = isWell dk nm ∧ (n.isLeaf = false → ∃ p i, n = .group nm p i []) := by
  unfold createNode at h
  split at h
  · rename_i hw
    simp only [bind_eq_ok] at h
    obtain ⟨a, -, b, -, h⟩ := h
    cases h
    exact ⟨rfl, rfl, rfl, by simp only [Node.isLeaf, isWell]; exact (decide_eq_true hw).symm, by simp [Node.isLeaf]⟩
  · rename_i hw
    simp only [bind_eq_ok] at h
    obtain ⟨a, -, b, -, h⟩ := h
    cases h
    exact ⟨rfl, by simp [Node.subs, subsAll], by simp [Node.edges, edgesAll], by simp only [Node.isLeaf, isWell]; exact (decide_eq_false hw).symm,
      fun _ => ⟨_, _, rfl⟩⟩

/-- A node can be created whatever its number. -/
theorem createNode_any {dk : FieldDeck} {nm : String} {s : Nat} {n : Node} (h : createNode dk nm s = .ok n) (t : Nat) : ∃ n', createNode dk nm t = .ok n' := by
  unfold createNode at h ⊢
  split at h
  · rename_i hw
    rw [if_pos hw]
    simp only [bind_eq_ok] at h
    obtain ⟨a, ha, b, hb, h⟩ := h
    exact ⟨_, by rw [ha, bind_ok, hb, bind_ok]⟩
  · rename_i hw
    rw [if_neg hw]
    exact ⟨_, h⟩

/-- A node is as the deck says, and the number of a well is its position in `leaf_nodes_`. -/
def AsCreated (dk : FieldDeck) (leaves : List String) (L : Label) : Prop :=
  ∃ s n, createNode dk L.name s = .ok n ∧ n.label = L ∧ (n.isLeaf = true → leaves[s]? = some L.name)

theorem AsCreated.mono {dk : FieldDeck} {a : List String} {L : Label} (h : AsCreated dk a L) (b : List String) : AsCreated dk (a ++ b) L := by
  obtain ⟨s, n, h1, h2, h3⟩ := h
  refine ⟨s, n, h1, h2, fun hl => ?_⟩
  have := h3 hl
  have hs := (List.getElem?_eq_some_iff.1 this).1
  rw [List.getElem?_append_left hs]
  exact this

/-- The trees after some calls. -/
structure TreeInv (dk : FieldDeck) (done : List (String × String)) (extra : List String) (leaves : List String) (rs : List Node) : Prop where
  edges : (edgesAll rs).Perm done
  nodup : (namesAll rs).Nodup
  mem : ∀ x ∈ namesAll rs, (∃ e ∈ done, x = e.1 ∨ x = e.2) ∨ x ∈ extra
  created : ∀ L ∈ labelsAll rs, AsCreated dk leaves L
  leaves : leaves = (done.map Prod.fst).filter (isWell dk)

theorem TreeInv.group {dk : FieldDeck} {done : List (String × String)} {extra leaves : List String} {rs : List Node} (h : TreeInv dk done extra leaves rs)
    {x : String} (hx : x ∈ namesAll rs) (hw : isWell dk x = false) : ∃ p i cs, Node.group x p i cs ∈ subsAll rs := by
  obtain ⟨n, hn, rfl⟩ := List.mem_map.1 hx
  obtain ⟨s, m, e1, e2, -⟩ := h.created _ (List.mem_map_of_mem hn)
  rw [label_name] at e1
  obtain ⟨-, -, -, k1, k2⟩ := createNode_shape e1
  obtain ⟨p, i, rfl⟩ := k2 (by rw [k1, hw])
  cases n with
  | group n' p' i' cs => exact ⟨p', i', cs, hn⟩
  | well _ _ _ _ _ => simp [Node.label] at e2

theorem withParent_ok {dk : FieldDeck} {done : List (String × String)} {leaves : List String} {rs : List Node} (h : TreeInv dk done [] leaves rs)
    {pa : String} {n0 : Node} (hc : createNode dk pa 0 = .ok n0) (hw : isWell dk pa = false) :
    ∃ rs', withParent dk pa ⟨rs, leaves⟩ = .ok rs' ∧ TreeInv dk done [pa] leaves rs' ∧ ∃ p i cs, Node.group pa p i cs ∈ subsAll rs' := by
  unfold withParent
  simp only
  cases e : findNode pa rs with
  | some r =>
    obtain ⟨h1, h2⟩ := findNode_some rs e
    refine ⟨rs, rfl, ⟨h.edges, h.nodup, fun x hx => ?_, h.created, h.leaves⟩, h.group (h2 ▸ List.mem_map_of_mem h1) hw⟩
    rcases h.mem x hx with h | h
    · exact .inl h
    · simp at h
  | none =>
    obtain ⟨n, hn⟩ := createNode_any hc leaves.length
    obtain ⟨k1, k2, k3, k4, k5⟩ := createNode_shape hn
    simp only [hn, bind_ok]
    have hs : subsAll (rs ++ [n]) = subsAll rs ++ [n] := by rw [subsAll_append]; simp [subsAll, k2]
    obtain ⟨p, i, hpi⟩ := k5 (by rw [k4, hw])
    refine ⟨_, rfl, ⟨?_, ?_, ?_, ?_, h.leaves⟩, p, i, [], by rw [hs, ← hpi]; simp⟩
    · rw [edgesAll_append]
      simp only [edgesAll, k3, List.append_nil]
      exact h.edges
    · rw [namesAll, hs, List.map_append, List.nodup_append]
      refine ⟨h.nodup, by simp, ?_⟩
      intro a ha b hb
      simp only [List.map_cons, List.map_nil, List.mem_singleton] at hb
      rintro rfl
      exact (findNode_none _ _).1 e (by rw [← k1, ← hb]; exact ha)
    · intro x hx
      rw [namesAll, hs, List.map_append, List.mem_append] at hx
      rcases hx with hx | hx
      · rcases h.mem x hx with h | h
        · exact .inl h
        · simp at h
      · simp only [List.map_cons, List.map_nil, List.mem_singleton] at hx
        exact .inr (by rw [hx, k1]; simp)
    · intro L hL
      rw [labelsAll, hs, List.map_append, List.mem_append] at hL
      rcases hL with hL | hL
      · exact h.created L hL
      · simp only [List.map_cons, List.map_nil, List.mem_singleton] at hL
        subst hL
        exact ⟨leaves.length, n, by rw [label_name, k1]; exact hn, rfl, fun hl => by rw [k4, hw] at hl; cases hl⟩

mutual
/-- The names in a tree have at most the rank of its root. -/
theorem rank_le (rank : String → Nat) : ∀ n : Node, (∀ e ∈ n.edges, rank e.1 < rank e.2) → ∀ x ∈ n.subs, rank x.name ≤ rank n.name
  | .group n p i cs, h, x, hx => by
    simp only [Node.edges, List.mem_append] at h
    simp only [Node.subs, List.mem_cons] at hx
    rcases hx with rfl | hx
    · exact le_refl _
    · obtain ⟨c, hc, hle⟩ := rank_le_all rank cs (fun e he => h e (.inr he)) x hx
      have := h (c.name, n) (.inl (List.mem_map.2 ⟨c, hc, rfl⟩))
      simp only [Node.name] at this ⊢
      exact hle.trans this.le
  | .well n p i s g, h, x, hx => by
    simp only [Node.subs, List.mem_singleton] at hx
    subst hx
    exact le_refl _
theorem rank_le_all (rank : String → Nat) : ∀ rs : List Node, (∀ e ∈ edgesAll rs, rank e.1 < rank e.2) → ∀ x ∈ subsAll rs, ∃ r ∈ rs, rank x.name ≤ rank r.name
  | [], h, x, hx => by simp [subsAll] at hx
  | c :: cs, h, x, hx => by
    simp only [edgesAll, List.mem_append] at h
    simp only [subsAll, List.mem_append] at hx
    rcases hx with hx | hx
    · exact ⟨c, by simp, rank_le rank c (fun e he => h e (.inl he)) x hx⟩
    · obtain ⟨r, hr, hle⟩ := rank_le_all rank cs (fun e he => h e (.inr he)) x hx
      exact ⟨r, by simp [hr], hle⟩
end

/-- After placing a child. -/
theorem place_ok {dk : FieldDeck} {done : List (String × String)} {leaves : List String} {rs : List Node} {ch : Node} {pa : String}
    (hed : (edgesAll rs ++ ch.edges).Perm done) (hnd : (namesAll rs ++ ch.subs.map Node.name).Nodup)
    (hmem : ∀ x ∈ namesAll rs ++ ch.subs.map Node.name, (∃ e ∈ done, x = e.1 ∨ x = e.2) ∨ x = pa ∨ x = ch.name)
    (hcr : ∀ L ∈ labelsAll rs ++ ch.subs.map Node.label, AsCreated dk (if ch.isLeaf then leaves ++ [ch.name] else leaves) L)
    (hlv : leaves = (done.map Prod.fst).filter (isWell dk)) (hleaf : ch.isLeaf = isWell dk ch.name)
    (hg : ∃ p i cs, Node.group pa p i cs ∈ subsAll rs) :
    ∃ c', place pa ch rs leaves = .ok c' ∧ TreeInv dk (done ++ [(ch.name, pa)]) [] c'.leaves c'.roots := by
  have h1 : (namesAll rs).Nodup := (List.nodup_append.1 hnd).1
  obtain ⟨rs', e, k⟩ := pushIn_ok pa ch rs h1 hg
  unfold place
  rw [e]
  have hnames : (namesAll rs').Perm (namesAll rs ++ ch.subs.map Node.name) := by
    rw [names_labels, names_labels]
    have := k.labels.map Label.name
    rw [List.map_append, List.map_map] at this
    have e2 : (Label.name ∘ Node.label) = Node.name := by funext x; exact label_name x
    rwa [e2] at this
  refine ⟨_, rfl, ?_, hnames.nodup_iff.2 hnd, ?_, fun L hL => hcr L (k.labels.mem_iff.1 hL), ?_⟩
  · refine k.edges.trans ?_
    refine (List.Perm.cons _ hed).trans ?_
    exact (List.perm_append_singleton _ _).symm
  · intro x hx
    left
    rcases hmem x (hnames.mem_iff.1 hx) with ⟨d, hd, hx⟩ | rfl | rfl
    · exact ⟨d, by simp [hd], hx⟩
    · exact ⟨(ch.name, x), by simp, .inr rfl⟩
    · exact ⟨(ch.name, pa), by simp, .inl rfl⟩
  · simp only [List.map_append, List.filter_append, List.map_cons, List.map_nil, List.filter_cons, List.filter_nil, hleaf]
    by_cases hw : isWell dk ch.name = true
    · simp [hw, ← hlv]
    · simp [hw, ← hlv]

/-- One call of `addChild`. -/
theorem addChild_ok {dk : FieldDeck} {done : List (String × String)} {c : Coll} (h : TreeInv dk done [] c.leaves c.roots) {ch pa : String}
    {rank : String → Nat} (hr : ∀ e ∈ done, rank e.1 < rank e.2) (hlt : rank ch < rank pa) (hnew : ch ∉ done.map Prod.fst)
    (hw : isWell dk pa = false) (hws : ∀ e ∈ done, isWell dk e.2 = false) {n0 n1 : Node} (hc0 : createNode dk pa 0 = .ok n0) (hc1 : createNode dk ch 0 = .ok n1) :
    ∃ c', addChild dk c (ch, pa) = .ok c' ∧ TreeInv dk (done ++ [(ch, pa)]) [] c'.leaves c'.roots := by
  obtain ⟨rs, e, k, p, i, cs, hg⟩ := withParent_ok h hc0 hw
  unfold addChild
  simp only
  rw [e, bind_ok]
  have hne : ch ≠ pa := by rintro rfl; omega
  have hcast : castGroup pa rs = .ok () := by
    unfold castGroup
    rw [show findNode pa rs = some (.group pa p i cs) from findNode_eq k.nodup hg]
  have hperm := all_names rs
  have hedge : ∀ x, x ∈ (edgesAll rs).map Prod.fst ↔ x ∈ done.map Prod.fst := fun x => (k.edges.map Prod.fst).mem_iff
  cases hf : rs.findIdx? (fun r => r.name = ch) with
  | some j =>
    rw [List.findIdx?_eq_some_iff_getElem] at hf
    obtain ⟨hj, hname, -⟩ := hf
    simp only [decide_eq_true_eq] at hname
    simp only
    unfold moveRoot
    rw [hcast, bind_ok, rd_ok hj, bind_ok]
    have hp : (rs[j] :: rs.eraseIdx j).Perm rs := List.getElem_cons_eraseIdx_perm hj
    have hps := subs_perm hp
    have hpe := edges_perm hp
    simp only [subsAll, edgesAll] at hps hpe
    have hrank : ∀ e ∈ rs[j].edges, rank e.1 < rank e.2 := fun e he => hr e ((hpe.trans k.edges).mem_iff.1 (by simp [he]))
    have hnot : pa ∉ rs[j].subs.map Node.name := by
      intro hm
      obtain ⟨x, hx, hxn⟩ := List.mem_map.1 hm
      have := rank_le rank rs[j] hrank x hx
      rw [hname, hxn] at this
      omega
    rw [if_neg (by rw [(findGroup_none pa rs[j]).2 hnot]; simp)]
    have hgr : ∃ p i cs, Node.group pa p i cs ∈ subsAll (rs.eraseIdx j) := by
      have := hps.mem_iff.2 hg
      rcases List.mem_append.1 this with h | h
      · exact absurd (List.mem_map_of_mem (f := Node.name) h) hnot
      · exact ⟨p, i, cs, h⟩
    have hwc : isWell dk ch = false := by
      have hm : ch ∈ namesAll rs := by
        rw [← hname]
        exact List.mem_map_of_mem (mem_subsAll.2 ⟨rs[j], List.getElem_mem hj, self_mem_subs _⟩)
      rcases k.mem ch hm with ⟨d, hd, h | h⟩ | h
      · exact absurd (List.mem_map.2 ⟨d, hd, h.symm⟩) hnew
      · rw [h]; exact hws d hd
      · simp at h; exact absurd h hne
    have hleaf : rs[j].isLeaf = false := by
      obtain ⟨p', i', cs', hm⟩ := k.group (x := ch) (by rw [← hname]; exact List.mem_map_of_mem (mem_subsAll.2 ⟨rs[j], List.getElem_mem hj, self_mem_subs _⟩)) hwc
      have := node_unique k.nodup (mem_subsAll.2 ⟨rs[j], List.getElem_mem hj, self_mem_subs _⟩) hm (by rw [hname]; rfl)
      rw [this]
      rfl
    have hcomm : (subsAll (rs.eraseIdx j) ++ rs[j].subs).Perm (subsAll rs) := List.perm_append_comm.trans hps
    have hnn : (namesAll (rs.eraseIdx j) ++ rs[j].subs.map Node.name).Perm (namesAll rs) := by
      have := hcomm.map Node.name
      rwa [List.map_append] at this
    have hll : (labelsAll (rs.eraseIdx j) ++ rs[j].subs.map Node.label).Perm (labelsAll rs) := by
      have := hcomm.map Node.label
      rwa [List.map_append] at this
    have hee : (edgesAll (rs.eraseIdx j) ++ rs[j].edges).Perm done := (List.perm_append_comm.trans hpe).trans k.edges
    have res := place_ok (dk := dk) (ch := rs[j]) (pa := pa) hee (hnn.nodup_iff.2 k.nodup) (fun x hx => by
        rcases k.mem x (hnn.mem_iff.1 hx) with h | h
        · exact .inl h
        · exact .inr (.inl (by simpa using h))) (fun L hL => by
        rw [hleaf]
        exact k.created L (hll.mem_iff.1 hL)) k.leaves (by rw [hleaf, hname, hwc]) hgr
    rw [hname] at res
    exact res
  | none =>
    rw [List.findIdx?_eq_none_iff] at hf
    simp only
    obtain ⟨n, hn⟩ := createNode_any hc1 c.leaves.length
    obtain ⟨k1, k2, k3, k4, k5⟩ := createNode_shape hn
    rw [hn, bind_ok, hcast, bind_ok]
    have hnm : ch ∉ namesAll rs := by
      intro hm
      have := hperm.mem_iff.1 hm
      rcases List.mem_append.1 this with h | h
      · obtain ⟨r, hr', e⟩ := List.mem_map.1 h
        have := hf r hr'
        simp [e] at this
      · exact hnew ((hedge ch).1 h)
    have res := place_ok (dk := dk) (done := done) (leaves := c.leaves) (rs := rs) (ch := n) (pa := pa) (by rw [k3, List.append_nil]; exact k.edges) (by
        rw [k2, List.nodup_append]
        refine ⟨k.nodup, by simp, ?_⟩
        intro a ha b hb
        simp only [List.map_cons, List.map_nil, List.mem_singleton] at hb
        rintro rfl
        exact hnm (by rw [← k1, ← hb]; exact ha)) (fun x hx => by
        rw [k2, List.mem_append] at hx
        rcases hx with hx | hx
        · rcases k.mem x hx with h | h
          · exact .inl h
          · exact .inr (.inl (by simpa using h))
        · exact .inr (.inr (by simpa using hx))) (fun L hL => by
        rw [k2, List.mem_append] at hL
        rcases hL with hL | hL
        · split
          · exact (k.created L hL).mono _
          · exact k.created L hL
        · simp only [List.map_cons, List.map_nil, List.mem_singleton] at hL
          subst hL
          refine ⟨c.leaves.length, n, by rw [label_name, k1]; exact hn, rfl, fun hl => ?_⟩
          rw [if_pos hl, label_name]
          simp) k.leaves (by rw [k4, k1]) ⟨p, i, cs, hg⟩
    rw [k1] at res
    exact res

/-- All calls. -/
theorem addChildren_ok {dk : FieldDeck} {rank : String → Nat} : ∀ (todo done : List (String × String)) {c : Coll}, TreeInv dk done [] c.leaves c.roots →
    (∀ e ∈ done ++ todo, rank e.1 < rank e.2) → ((done ++ todo).map Prod.fst).Nodup → (∀ e ∈ done ++ todo, isWell dk e.2 = false) →
    (∀ e ∈ done ++ todo, (∃ n, createNode dk e.1 0 = .ok n) ∧ ∃ n, createNode dk e.2 0 = .ok n) →
    ∃ c', todo.foldlM (addChild dk) c = .ok c' ∧ TreeInv dk (done ++ todo) [] c'.leaves c'.roots
  | [], done, c, h, _, _, _, _ => ⟨c, rfl, by rw [List.append_nil]; exact h⟩
  | (ch, pa) :: todo, done, c, h, hr, hn, hw, hc => by
    obtain ⟨⟨n1, h1⟩, n0, h0⟩ := hc (ch, pa) (by simp)
    obtain ⟨c1, e, k⟩ := addChild_ok h (fun e he => hr e (by simp [he])) (hr (ch, pa) (by simp)) (by
      rw [List.map_append, List.nodup_append] at hn
      intro hm
      exact hn.2.2 ch hm ch (by simp) rfl) (hw (ch, pa) (by simp)) (fun e he => hw e (by simp [he])) h0 h1
    have ea : done ++ (ch, pa) :: todo = (done ++ [(ch, pa)]) ++ todo := by simp
    rw [ea] at hr hn hw hc ⊢
    obtain ⟨c2, e2, k2⟩ := addChildren_ok todo (done ++ [(ch, pa)]) k hr hn hw hc
    exact ⟨c2, by rw [List.foldlM_cons, e]; exact e2, k2⟩

end Opm.Manager
