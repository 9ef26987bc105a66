import Verif.Proofs.WellTreeBuild
import Verif.Proofs.WellsManagerDeck
import Verif.Spec.WellTree
import Mathlib.Tactic.Linarith
/-!
# The group hierarchy of a deck: from records to nodes
-/

namespace Opm.Manager
open Opm Wells Groups

/-! ### The last record -/

theorem lastFor_snoc {α : Type} (key : α → String) (ls : List α) (x : α) (n : String) :
    lastFor key (ls ++ [x]) n = if key x = n then some x else lastFor key ls n := by
  unfold lastFor
  rw [List.filter_append, List.filter_cons, List.filter_nil]
  by_cases h : key x = n
  · simp [h]
  · simp [h]

theorem lastFor_mem {α : Type} {key : α → String} {ls : List α} {n : String} {x : α} (h : lastFor key ls n = some x) : x ∈ ls ∧ key x = n := by
  unfold lastFor at h
  have := List.mem_of_getLast? h
  simpa using this

theorem lastFor_none {α : Type} {key : α → String} {ls : List α} {n : String} : lastFor key ls n = none ↔ n ∉ ls.map key := by
  unfold lastFor
  rw [List.getLast?_eq_none_iff, List.filter_eq_nil_iff]
  simp

/-! ### The map of `GRUPTREE` -/

theorem str_lt_of_not {a b : String} (h1 : a ≠ b) (h2 : ¬a < b) : b < a := by
  by_contra h
  exact h1 (String.le_antisymm h h2)

theorem putEdge_sorted (e : String × String) : ∀ m : List (String × String), m.Pairwise (fun a b => a.1 < b.1) →
    (putEdge e m).Pairwise (fun a b => a.1 < b.1) ∧ ∀ x, x ∈ putEdge e m ↔ x = e ∨ (x ∈ m ∧ x.1 ≠ e.1)
  | [], _ => by simp [putEdge]
  | y :: m, h => by
    rw [List.pairwise_cons] at h
    unfold putEdge
    by_cases h1 : e.1 = y.1
    · rw [if_pos h1]
      refine ⟨List.pairwise_cons.2 ⟨fun b hb => by rw [h1]; exact h.1 b hb, h.2⟩, fun x => ?_⟩
      simp only [List.mem_cons]
      constructor
      · rintro (rfl | hx)
        · exact .inl rfl
        · exact .inr ⟨.inr hx, fun e' => by have := h.1 x hx; rw [e', h1] at this; exact absurd this (String.lt_irrefl _)⟩
      · rintro (rfl | ⟨rfl | hx, hne⟩)
        · exact .inl rfl
        · exact absurd h1.symm hne
        · exact .inr hx
    · rw [if_neg h1]
      by_cases h2 : e.1 < y.1
      · rw [if_pos h2]
        refine ⟨List.pairwise_cons.2 ⟨fun b hb => ?_, List.pairwise_cons.2 h⟩, fun x => ?_⟩
        · rcases List.mem_cons.1 hb with rfl | hb
          · exact h2
          · exact String.lt_trans h2 (h.1 b hb)
        · simp only [List.mem_cons]
          constructor
          · rintro (rfl | rfl | hx)
            · exact .inl rfl
            · exact .inr ⟨.inl rfl, fun e' => h1 e'.symm⟩
            · exact .inr ⟨.inr hx, fun e' => by have := String.lt_trans h2 (h.1 x hx); rw [e'] at this; exact absurd this (String.lt_irrefl _)⟩
          · rintro (rfl | ⟨hx, -⟩)
            · exact .inl rfl
            · exact .inr hx
      · rw [if_neg h2]
        obtain ⟨k1, k2⟩ := putEdge_sorted e m h.2
        have h3 := str_lt_of_not h1 h2
        refine ⟨List.pairwise_cons.2 ⟨fun b hb => ?_, k1⟩, fun x => ?_⟩
        · rcases (k2 b).1 hb with rfl | ⟨hb, -⟩
          · exact h3
          · exact h.1 b hb
        · simp only [List.mem_cons, k2]
          constructor
          · rintro (rfl | rfl | ⟨hx, hne⟩)
            · exact .inr ⟨.inl rfl, fun e' => h1 e'.symm⟩
            · exact .inl rfl
            · exact .inr ⟨.inr hx, hne⟩
          · rintro (rfl | ⟨rfl | hx, hne⟩)
            · exact .inr (.inl rfl)
            · exact .inl rfl
            · exact .inr (.inr ⟨hx, hne⟩)

theorem treeMap_ok (ls : List (String × String)) : (treeMap ls).Pairwise (fun a b => a.1 < b.1) ∧ ∀ a b, (a, b) ∈ treeMap ls ↔ lastFor Prod.fst ls a = some (a, b) := by
  induction ls using List.reverseRecOn with
  | nil => simp [treeMap, lastFor]
  | append_singleton ls e ih =>
    have : treeMap (ls ++ [e]) = putEdge e (treeMap ls) := by simp [treeMap]
    rw [this]
    obtain ⟨k1, k2⟩ := putEdge_sorted e _ ih.1
    refine ⟨k1, fun a b => ?_⟩
    rw [k2, lastFor_snoc, ih.2]
    by_cases h : e.1 = a
    · rw [if_pos h]
      simp only [Option.some.injEq]
      constructor
      · rintro (h' | ⟨-, hne⟩)
        · exact h'.symm
        · exact absurd h.symm hne
      · exact fun h' => .inl h'.symm
    · rw [if_neg h]
      constructor
      · rintro (rfl | ⟨h', -⟩)
        · exact absurd rfl h
        · exact h'
      · exact fun h' => .inr ⟨h', fun e' => h e'.symm⟩

theorem mem_calls {dk : FieldDeck} {specs : List WelspecsLine} {a b : String} : (a, b) ∈ calls dk specs ↔ Member dk specs a b := by
  unfold calls Member
  rw [List.mem_append, (treeMap_ok _).2]
  simp

theorem calls_nodup {dk : FieldDeck} {specs : List WelspecsLine} (h : TreeOk dk specs) : ((calls dk specs).map Prod.fst).Nodup := by
  unfold calls
  rw [List.map_append, List.map_map, List.nodup_append]
  refine ⟨?_, by simpa [Function.comp_def] using h.distinct, ?_⟩
  · have := (treeMap_ok (dk.gruptree.getD [])).1
    rw [List.Nodup, List.pairwise_map]
    exact this.imp (fun h e => by rw [e] at h; exact String.lt_irrefl _ h)
  · intro a ha b hb
    obtain ⟨x, hx, rfl⟩ := List.mem_map.1 ha
    obtain ⟨l, hl, rfl⟩ := List.mem_map.1 hb
    have := ((treeMap_ok (dk.gruptree.getD [])).2 x.1 x.2).1 hx
    exact h.once l hl _ (lastFor_mem this).1

/-! ### Nodes from records -/

theorem toInjectorType_ok {t : String} (h : FluidOk t) : ∃ x, toInjectorType t = .ok x ∧ injectedPhase t = some x.fluid := by
  unfold FluidOk at h
  unfold injectedPhase at h ⊢
  unfold toInjectorType
  split at h
  · rename_i e; rw [e]; exact ⟨_, rfl, rfl⟩
  · rename_i e; rw [e]; exact ⟨_, rfl, rfl⟩
  · rename_i e; rw [e]; exact ⟨_, rfl, rfl⟩
  · exact absurd rfl h

theorem toInjMode_keyword (m : InjMode) : toInjMode m.keyword = .ok m := by cases m <;> decide +kernel

theorem toProdMode_keyword (m : ProdMode) : toProdMode m.keyword = .ok m := by cases m <;> decide +kernel

theorem toProcedure_ok {t : String} (h : t ∈ ["NONE", "RATE", "WELL"]) : ∃ x, toProcedure t = .ok x ∧ x.keyword = t := by
  simp only [List.mem_cons, List.not_mem_nil, or_false] at h
  rcases h with rfl | rfl | rfl
  · exact ⟨.none, by decide +kernel⟩
  · exact ⟨.rate, by decide +kernel⟩
  · exact ⟨.well, by decide +kernel⟩

/-- Reading the records of a keyword: the last one for a name counts. -/
theorem fold_last {α σ : Type} {key : α → String} {nm : String} {f : σ → α → M σ} {P : σ → Option α → Prop} {ls : List α} {s : σ} (h0 : P s none)
    (hs : ∀ s o, ∀ l ∈ ls, P s o → (key l = nm → ∃ s', f s l = .ok s' ∧ P s' (some l)) ∧ (key l ≠ nm → f s l = .ok s)) :
    ∃ s', ls.foldlM f s = .ok s' ∧ P s' (lastFor key ls nm) := by
  induction ls using List.reverseRecOn with
  | nil => exact ⟨s, rfl, h0⟩
  | append_singleton ls x ih =>
    obtain ⟨s1, e1, p1⟩ := ih (fun s o l hl => hs s o l (by simp [hl]))
    rw [List.foldlM_append, e1, bind_ok, lastFor_snoc]
    obtain ⟨k1, k2⟩ := hs s1 _ x (by simp) p1
    by_cases hx : key x = nm
    · obtain ⟨s2, e2, p2⟩ := k1 hx
      exact ⟨s2, by simp [e2], by rw [if_pos hx]; exact p2⟩
    · exact ⟨s1, by simp [k2 hx], by rw [if_neg hx]; exact p1⟩

theorem group_created {dk : FieldDeck} {specs : List WelspecsLine} (hr : RecordsOk dk specs) {G : String} (hG : isWell dk G = false) (s : Nat) :
    ∃ p i, createNode dk G s = .ok (.group G p i []) ∧ GroupSpec dk G p i := by
  unfold createNode
  rw [if_neg (by simpa [isWell] using hG)]
  obtain ⟨i, e1, k1⟩ := fold_last (key := GconinjeLine.group) (nm := G) (f := groupInjLine G) (ls := dk.gconinje.getD []) (s := ({} : InjSpec))
    (P := fun i o => (o = none → i.mode = .none) ∧ ∀ l, o = some l → (i.mode.keyword = l.controlMode ∧ i.limit = l.limit i.mode) ∧
      injectedPhase l.injectorType = some i.injectorType.fluid ∧ i.surfaceMax = l.surfaceMax ∧ i.reservoirMax = l.reservoirMax ∧
      i.reinjectionFraction = l.reinjection ∧ i.voidageFraction = l.voidage)
    ⟨fun _ => rfl, by simp⟩ (fun i o l hl _ => ⟨fun hk => by
      obtain ⟨h1, m, h2⟩ := hr.inj l hl
      obtain ⟨t, ht, hph⟩ := toInjectorType_ok h1
      refine ⟨_, by unfold groupInjLine; rw [if_pos hk, ht, bind_ok, h2, toInjMode_keyword, bind_ok], by simp, ?_⟩
      rintro l' ⟨⟩
      refine ⟨⟨h2.symm, ?_⟩, hph, rfl, rfl, rfl, rfl⟩
      unfold InjSpec.limit GconinjeLine.limit
      cases m <;> simp, fun hk => by unfold groupInjLine; rw [if_neg hk]⟩)
  obtain ⟨p, e2, k2⟩ := fold_last (key := GconprodLine.group) (nm := G) (f := groupProdLine G) (ls := dk.gconprod.getD []) (s := ({} : ProdSpec))
    (P := fun p o => (o = none → p.mode = .none) ∧ ∀ l, o = some l → (p.mode.keyword = l.controlMode ∧ ∀ m : ProdMode, p.limit m = l.limit m) ∧
      p.procedure.keyword = l.procedure)
    ⟨fun _ => rfl, by simp⟩ (fun i o l hl _ => ⟨fun hk => by
      obtain ⟨⟨m, h2⟩, h1⟩ := hr.prod l hl
      obtain ⟨t, ht, hk'⟩ := toProcedure_ok h1
      refine ⟨_, by unfold groupProdLine; rw [if_pos hk, h2, toProdMode_keyword, bind_ok, ht, bind_ok], by simp, ?_⟩
      rintro l' ⟨⟩
      refine ⟨⟨h2.symm, fun m' => ?_⟩, hk'⟩
      cases m' <;> rfl, fun hk => by unfold groupProdLine; rw [if_neg hk]⟩)
  exact ⟨p, i, by rw [e1, bind_ok, e2, bind_ok], k2.1, fun l hl => (k2.2 l hl).1, fun l hl => (k2.2 l hl).2, k1.1, fun l hl => (k1.2 l hl).1, fun l hl => (k1.2 l hl).2⟩

theorem well_created {dk : FieldDeck} {n : String} (hw : isWell dk n = true)
    (h1 : ∀ l ∈ dk.base.wconinje.getD [], FluidOk l.injectorType ∧ ∃ m : InjMode, l.controlMode = m.keyword)
    (h2 : ∀ l ∈ dk.base.wconprod.getD [], ∃ m : ProdMode, l.controlMode = m.keyword) (s : Nat) :
    ∃ p i, createNode dk n s = .ok (.well n p i s (-1)) ∧ WellSpec dk n p i := by
  unfold createNode
  rw [if_pos (by simpa [isWell] using hw)]
  obtain ⟨r, e1, k1⟩ := fold_last (key := WconinjeLine.well) (nm := n) (f := wellInjLine n) (ls := dk.base.wconinje.getD []) (s := (({}, {}) : ProdSpec × InjSpec))
    (P := fun r o => r.1.mode = .none ∧ r.2.guideRate = 1 ∧ (o = none → r.1.guideRate = 1 ∧ r.2.mode = .none) ∧
      ∀ l, o = some l → (r.1.guideRate = 0 ∧ r.2.mode.keyword = l.controlMode) ∧
        injectedPhase l.injectorType = some r.2.injectorType.fluid ∧ r.2.surfaceMax = l.surfaceMax ∧ r.2.reservoirMax = l.reservoirMax)
    ⟨rfl, rfl, fun _ => ⟨rfl, rfl⟩, by simp⟩ (fun r o l hl hP => ⟨fun hk => by
      obtain ⟨g1, m, g2⟩ := h1 l hl
      obtain ⟨t, ht, hph⟩ := toInjectorType_ok g1
      refine ⟨({ r.1 with guideRate := 0 }, { r.2 with injectorType := t, mode := m, surfaceMax := l.surfaceMax, reservoirMax := l.reservoirMax }),
        by unfold wellInjLine; rw [if_pos hk, ht, bind_ok, g2, toInjMode_keyword, bind_ok], hP.1, hP.2.1, by simp, ?_⟩
      rintro l' ⟨⟩
      exact ⟨⟨rfl, g2.symm⟩, hph, rfl, rfl⟩, fun hk => by unfold wellInjLine; rw [if_neg hk]⟩)
  obtain ⟨q, e2, k2⟩ := fold_last (key := WconprodLine.well) (nm := n) (f := wellProdLine n) (ls := dk.base.wconprod.getD []) (s := r)
    (P := fun q o => q.1.guideRate = r.1.guideRate ∧ (q.2.mode = r.2.mode ∧ q.2.injectorType = r.2.injectorType ∧ q.2.surfaceMax = r.2.surfaceMax ∧ q.2.reservoirMax = r.2.reservoirMax) ∧ (o = none → q.2.guideRate = 1 ∧ q.1.mode = .none) ∧
      ∀ l, o = some l → (q.2.guideRate = 0 ∧ q.1.mode.keyword = l.controlMode) ∧ q.1.oilMax = l.oilMax ∧ q.1.waterMax = l.waterMax ∧ q.1.reservoirMax = l.reservoirMax)
    ⟨rfl, ⟨rfl, rfl, rfl, rfl⟩, fun _ => ⟨k1.2.1, k1.1⟩, by simp⟩ (fun q o l hl hP => ⟨fun hk => by
      obtain ⟨m, g2⟩ := h2 l hl
      refine ⟨({ q.1 with reservoirMax := l.reservoirMax, oilMax := l.oilMax, mode := m, waterMax := l.waterMax }, { q.2 with guideRate := 0 }),
        by unfold wellProdLine; rw [if_pos hk, g2, toProdMode_keyword, bind_ok], hP.1, hP.2.1, by simp, ?_⟩
      rintro l' ⟨⟩
      exact ⟨⟨rfl, g2.symm⟩, rfl, rfl, rfl⟩, fun hk => by unfold wellProdLine; rw [if_neg hk]⟩)
  refine ⟨q.1, q.2, by rw [e1, bind_ok, e2, bind_ok], ?_, ?_, ?_, k2.2.2.1, fun l hl => (k2.2.2.2 l hl).1, fun l hl => (k2.2.2.2 l hl).2⟩
  · rw [k2.1, k2.2.1.1]; exact k1.2.2.1
  · rw [k2.1, k2.2.1.1]; exact fun l hl => (k1.2.2.2 l hl).1
  · rw [k2.2.1.2.1, k2.2.1.2.2.1, k2.2.1.2.2.2]; exact fun l hl => (k1.2.2.2 l hl).2

/-! ### The tree of a deck -/

/-- The nodes: groups and wells as the deck says; wells are numbered in the order of `WELSPECS`. -/
def NodeOk (dk : FieldDeck) (specs : List WelspecsLine) (L : Label) : Prop :=
  (L.name ∉ specs.map WelspecsLine.name ∧ L.self = none ∧ GroupSpec dk L.name L.prod L.inj) ∨
  (∃ i : Nat, (specs.map WelspecsLine.name)[i]? = some L.name ∧ L.self = some ((i : Int), -1) ∧ WellSpec dk L.name L.prod L.inj)

theorem buildTree_ok {dk : FieldDeck} {specs : List WelspecsLine} (hs : dk.base.welspecs = some specs) (ht : TreeOk dk specs) (hr : RecordsOk dk specs)
    (hi : ∀ l ∈ dk.base.wconinje.getD [], ∃ m : InjMode, l.controlMode = m.keyword)
    (hp : ∀ l ∈ dk.base.wconprod.getD [], ∃ m : ProdMode, l.controlMode = m.keyword) :
    ∃ c, buildTree dk specs = .ok c ∧ c.leaves = specs.map WelspecsLine.name ∧ (namesAll c.roots).Nodup ∧
      (∀ a b, (a, b) ∈ edgesAll c.roots ↔ Member dk specs a b) ∧ (∀ x ∈ namesAll c.roots, ∃ a, Member dk specs a x ∨ Member dk specs x a) ∧
      ∀ L ∈ labelsAll c.roots, NodeOk dk specs L := by
  obtain ⟨level, hl⟩ := ht.levels
  have hwell : ∀ n, isWell dk n = true ↔ n ∈ specs.map WelspecsLine.name := fun n => by simp [isWell, hs]
  have hcreate : ∀ n, ∃ x, createNode dk n 0 = .ok x := fun n => by
    cases h : isWell dk n with
    | true =>
      obtain ⟨p, i, e, -⟩ := well_created h (fun l hl => ⟨hr.fluids l hl, hi l hl⟩) hp 0
      exact ⟨_, e⟩
    | false =>
      obtain ⟨p, i, e, -⟩ := group_created hr h 0
      exact ⟨_, e⟩
  have h0 : TreeInv dk [] [] [] [] := ⟨by simp [edgesAll], by simp [namesAll, subsAll], by simp [namesAll, subsAll], by simp [labelsAll, subsAll], rfl⟩
  obtain ⟨c, e, k⟩ := addChildren_ok (rank := level) (calls dk specs) [] (c := ⟨[], []⟩) h0
    (fun e he => hl e.1 e.2 (mem_calls.1 (by simpa using he))) (by simpa using calls_nodup ht)
    (fun e he => by
      have := ht.parents e.1 e.2 (mem_calls.1 (by simpa using he))
      rw [← hwell] at this
      simpa using this) (fun e _ => ⟨hcreate _, hcreate _⟩)
  rw [List.nil_append] at k
  have hlv : c.leaves = specs.map WelspecsLine.name := by
    rw [k.leaves, calls, List.map_append, List.filter_append]
    have e1 : ((treeMap (dk.gruptree.getD [])).map Prod.fst).filter (isWell dk) = [] := by
      rw [List.filter_eq_nil_iff]
      intro a ha
      obtain ⟨x, hx, rfl⟩ := List.mem_map.1 ha
      rw [hwell]
      intro hm
      obtain ⟨l, hl, e⟩ := List.mem_map.1 hm
      exact ht.once l hl x (lastFor_mem (((treeMap_ok (dk.gruptree.getD [])).2 x.1 x.2).1 hx)).1 e.symm
    rw [e1, List.nil_append, List.map_map, List.filter_eq_self.2]
    · rfl
    · intro a ha
      exact (hwell a).2 ha
  refine ⟨c, e, hlv, k.nodup, fun a b => by rw [k.edges.mem_iff, mem_calls], fun x hx => ?_, fun L hL => ?_⟩
  · rcases k.mem x hx with ⟨e, he, rfl | rfl⟩ | h
    · exact ⟨e.2, .inr (mem_calls.1 he)⟩
    · exact ⟨e.1, .inl (mem_calls.1 he)⟩
    · simp at h
  · obtain ⟨s, n, e1, e2, e3⟩ := k.created L hL
    obtain ⟨-, -, -, k4, -⟩ := createNode_shape e1
    cases h : isWell dk L.name with
    | true =>
      right
      obtain ⟨p, i, e', w⟩ := well_created h (fun l hl => ⟨hr.fluids l hl, hi l hl⟩) hp s
      rw [e1] at e'
      cases e'
      rw [k4, h] at e3
      have e3 := e3 rfl
      rw [hlv] at e3
      have q1 : L.self = some ((s : Int), -1) := by rw [← e2]; rfl
      have q2 : L.prod = p := by rw [← e2]; rfl
      have q3 : L.inj = i := by rw [← e2]; rfl
      exact ⟨s, e3, q1, by rw [q2, q3]; exact w⟩
    | false =>
      left
      obtain ⟨p, i, e', w⟩ := group_created hr h s
      rw [e1] at e'
      cases e'
      have q1 : L.self = none := by rw [← e2]; rfl
      have q2 : L.prod = p := by rw [← e2]; rfl
      have q3 : L.inj = i := by rw [← e2]; rfl
      exact ⟨fun hm => (by rw [← hwell, h] at hm; cases hm), q1, by rw [q2, q3]; exact w⟩

end Opm.Manager
