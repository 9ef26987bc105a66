import Verif.Proofs.WellTreeShape
/-!
# The group hierarchy of a deck: guide rates
-/

namespace Opm.Manager
open Opm Wells Groups

theorem declared_nodup {specs : List WelspecsLine} (h : (specs.map WelspecsLine.name).Nodup) : declared specs = specs.map WelspecsLine.name := by
  unfold declared firstNames
  have key : ∀ (ns acc : List String), (acc ++ ns).Nodup → ns.foldl (fun acc n => if n ∈ acc then acc else acc ++ [n]) acc = acc ++ ns := by
    intro ns
    induction ns with
    | nil => intro acc _; simp
    | cons n ns ih =>
      intro acc h
      rw [List.foldl_cons, if_neg (fun hm => (List.nodup_append.1 h).2.2 n hm n (by simp) rfl), ih _ (by simpa using h)]
      simp
  rw [key _ [] (by simpa using h), List.nil_append]

/-- The guide rate after some records. -/
def guideAfter (ls : List WgrupconLine) (n : String) : Rat :=
  match lastFor WgrupconLine.well ls n with
  | some l => l.guideRate
  | none => 1

/-- A well after some records of `WGRUPCON`. -/
structure WellNow (dk : FieldDeck) (ls : List WgrupconLine) (n : String) (p : ProdSpec) (i : InjSpec) : Prop where
  prodMode : ∀ r, lastFor WconprodLine.well (dk.base.wconprod.getD []) n = some r → p.mode.keyword = r.controlMode
  injMode : ∀ r, lastFor WconinjeLine.well (dk.base.wconinje.getD []) n = some r → i.mode.keyword = r.controlMode
  prodGuide : p.guideRate = if n ∈ prodNamesOf dk.base then guideAfter ls n else 0
  injGuide : i.guideRate = if n ∈ injNamesOf dk.base then guideAfter ls n else 0

/-- A node after some records of `WGRUPCON`. -/
def NodeNow (dk : FieldDeck) (specs : List WelspecsLine) (ls : List WgrupconLine) (L : Label) : Prop :=
  (L.name ∉ specs.map WelspecsLine.name ∧ L.self = none ∧ GroupSpec dk L.name L.prod L.inj) ∨
  (∃ i : Nat, (specs.map WelspecsLine.name)[i]? = some L.name ∧ L.self = some ((i : Int), -1) ∧ WellNow dk ls L.name L.prod L.inj)

theorem nodeNow_start {dk : FieldDeck} {specs : List WelspecsLine} (h1 : ∀ n ∈ specs.map WelspecsLine.name, n ∈ injNamesOf dk.base ∨ n ∈ prodNamesOf dk.base)
    (h2 : ∀ n ∈ injNamesOf dk.base, n ∉ prodNamesOf dk.base) {L : Label} (h : NodeOk dk specs L) : NodeNow dk specs [] L := by
  rcases h with h | ⟨i, hi, hs, w⟩
  · exact .inl h
  · refine .inr ⟨i, hi, hs, ?_⟩
    have hn := List.mem_of_getElem? hi
    refine ⟨fun r hr => (w.prodSome r hr).2, fun r hr => (w.injSome r hr).2, ?_, ?_⟩
    · by_cases hp : L.name ∈ prodNamesOf dk.base
      · rw [if_pos hp]
        exact (w.injNone (lastFor_none.2 (fun h => h2 _ h hp))).1
      · rw [if_neg hp]
        rcases h1 _ hn with h | h
        · cases e : lastFor WconinjeLine.well (dk.base.wconinje.getD []) L.name with
          | none => exact absurd h (lastFor_none.1 e)
          | some l => exact (w.injSome l e).1
        · exact absurd h hp
    · by_cases hp : L.name ∈ injNamesOf dk.base
      · rw [if_pos hp]
        exact (w.prodNone (lastFor_none.2 (fun h => h2 _ hp h))).1
      · rw [if_neg hp]
        rcases h1 _ hn with h | h
        · exact absurd h hp
        · cases e : lastFor WconprodLine.well (dk.base.wconprod.getD []) L.name with
          | none => exact absurd h (lastFor_none.1 e)
          | some l => exact (w.prodSome l e).1

theorem guideAfter_snoc (ls : List WgrupconLine) (l : WgrupconLine) (n : String) :
    guideAfter (ls ++ [l]) n = if l.well = n then l.guideRate else guideAfter ls n := by
  unfold guideAfter
  rw [lastFor_snoc]
  by_cases h : l.well = n
  · simp [h]
  · simp [h]

theorem wgrupcon_ok {dk : FieldDeck} {specs : List WelspecsLine} {b : Built} (hd : (specs.map WelspecsLine.name).Nodup) (hn : b.names = specs.map WelspecsLine.name)
    (hx : ∀ n (i : Nat), b.index.lookup n = some i ↔ b.names[i]? = some n)
    (hk : ∀ (i : Nat) n, b.names[i]? = some n → ∃ d t, b.data[i]? = some d ∧ d.type = some t ∧ kindOf dk.base n = some t)
    (h2 : ∀ n ∈ injNamesOf dk.base, n ∉ prodNamesOf dk.base) (ls : List WgrupconLine)
    (hg : ∀ l ∈ ls, (Produces dk specs l.well ∧ l.phase = "OIL") ∨ (Injects dk specs l.well ∧ l.phase = "RAT")) {rs : List Node}
    (h : ∀ L ∈ labelsAll rs, NodeNow dk specs [] L) :
    ∃ rs', readWgrupcon b (specs.map WelspecsLine.name) ls rs = .ok rs' ∧ edgesAll rs' = edgesAll rs ∧ namesAll rs' = namesAll rs ∧
      ∀ L ∈ labelsAll rs', NodeNow dk specs ls L := by
  unfold readWgrupcon
  induction ls using List.reverseRecOn with
  | nil => exact ⟨rs, rfl, rfl, rfl, h⟩
  | append_singleton ls l ih =>
    obtain ⟨rs1, e1, k1, k2, k3⟩ := ih (fun l hl => hg l (by simp [hl]))
    rw [List.foldlM_append, e1, bind_ok]
    have hl := hg l (by simp)
    have hw : l.well ∈ specs.map WelspecsLine.name := by rcases hl with h | h <;> exact h.1.1
    obtain ⟨i, hi⟩ := List.getElem?_of_mem hw
    have hi' : b.names[i]? = some l.well := by rw [hn]; exact hi
    obtain ⟨d, t, hd1, hd2, hd3⟩ := hk i _ hi'
    have here : ∀ L : Label, NodeNow dk specs ls L → (L.self.map Prod.fst = some (i : Int) ↔ L.name = l.well) := by
      rintro L (⟨hL, hs, -⟩ | ⟨j, hj, hs, -⟩)
      · rw [hs]
        simp only [Option.map_none, reduceCtorEq, false_iff]
        intro e
        rw [e] at hL
        exact hL hw
      · rw [hs]
        simp only [Option.map_some, Option.some.injEq, Nat.cast_inj]
        constructor
        · rintro rfl
          rw [hi] at hj
          exact (Option.some.inj hj).symm
        · intro e
          rw [e] at hj
          have a1 := (List.getElem?_eq_some_iff.1 hi).1
          have a2 := (List.getElem?_eq_some_iff.1 hj).1
          exact (List.Nodup.getElem_inj_iff hd (hi := a2) (hj := a1)).1 (by rw [(List.getElem?_eq_some_iff.1 hi).2, (List.getElem?_eq_some_iff.1 hj).2])
    have pre : (specs.map WelspecsLine.name)[i]? = some l.well := hi
    simp only [List.foldlM_cons, List.foldlM_nil]
    unfold wgrupconStep
    simp only [(hx _ _).2 hi', Option.getD_some, rd_of_getElem? pre, bind_ok, decide_true, check_ok, rd_of_getElem? hd1, hd2]
    have grp : ∀ L : Label, ∀ f, NodeNow dk specs ls L → L.name ∉ specs.map WelspecsLine.name → NodeNow dk specs (ls ++ [l]) (L.respec i f) := by
      rintro L f hL hnot
      have : L.respec i f = L := by
        unfold Label.respec
        rw [if_neg (fun e => hnot (by rw [(here L hL).1 e]; exact hw))]
      rw [this]
      rcases hL with hL | ⟨j, hj, -⟩
      · exact .inl hL
      · exact absurd (List.mem_of_getElem? hj) hnot
    rcases hl with ⟨hP, hph⟩ | ⟨hP, hph⟩
    · have ht : t = .producer := by
        unfold kindOf at hd3
        rw [if_pos hP.2] at hd3
        cases hd3
        rfl
      subst ht
      simp only [hph, if_true]
      refine ⟨_, rfl, by rw [(all_respec _ _ rs1).2, k1], by rw [names_respec, k2], ?_⟩
      intro L' hL'
      rw [labels_respec] at hL'
      obtain ⟨L, hL, rfl⟩ := List.mem_map.1 hL'
      have old := k3 L hL
      by_cases hnw : L.name ∈ specs.map WelspecsLine.name
      · rcases id old with hL0 | ⟨j, hj, hs, w⟩
        · exact absurd hnw hL0.1
        · unfold Label.respec
          by_cases hc : L.self.map Prod.fst = some (i : Int)
          · rw [if_pos hc]
            have hname := (here L old).1 hc
            refine .inr ⟨j, hj, hs, w.prodMode, w.injMode, ?_, ?_⟩
            · change l.guideRate = _
              rw [guideAfter_snoc]
              simp only [hname, if_pos hP.2, if_true]
            · change L.inj.guideRate = _
              rw [w.injGuide]
              simp only [hname]
              have hni : l.well ∉ injNamesOf dk.base := fun h => h2 _ h hP.2
              rw [if_neg hni, if_neg hni]
          · rw [if_neg hc]
            have hname : l.well ≠ L.name := fun e => hc ((here L old).2 e.symm)
            refine .inr ⟨j, hj, hs, w.prodMode, w.injMode, ?_, ?_⟩
            · rw [w.prodGuide, guideAfter_snoc, if_neg hname]
            · rw [w.injGuide, guideAfter_snoc, if_neg hname]
      · exact grp L _ old hnw
    · have hnp : l.well ∉ prodNamesOf dk.base := h2 _ hP.2
      have ht : t = .injector := by
        unfold kindOf at hd3
        rw [if_neg hnp, if_pos hP.2] at hd3
        cases hd3
        rfl
      subst ht
      simp only [hph, if_true]
      refine ⟨_, rfl, by rw [(all_respec _ _ rs1).2, k1], by rw [names_respec, k2], ?_⟩
      intro L' hL'
      rw [labels_respec] at hL'
      obtain ⟨L, hL, rfl⟩ := List.mem_map.1 hL'
      have old := k3 L hL
      by_cases hnw : L.name ∈ specs.map WelspecsLine.name
      · rcases id old with hL0 | ⟨j, hj, hs, w⟩
        · exact absurd hnw hL0.1
        · unfold Label.respec
          by_cases hc : L.self.map Prod.fst = some (i : Int)
          · rw [if_pos hc]
            have hname := (here L old).1 hc
            refine .inr ⟨j, hj, hs, w.prodMode, w.injMode, ?_, ?_⟩
            · change L.prod.guideRate = _
              rw [w.prodGuide]
              simp only [hname]
              rw [if_neg hnp, if_neg hnp]
            · change l.guideRate = _
              rw [guideAfter_snoc]
              simp only [hname, if_pos hP.2, if_true]
          · rw [if_neg hc]
            have hname : l.well ≠ L.name := fun e => hc ((here L old).2 e.symm)
            refine .inr ⟨j, hj, hs, w.prodMode, w.injMode, ?_, ?_⟩
            · rw [w.prodGuide, guideAfter_snoc, if_neg hname]
            · rw [w.injGuide, guideAfter_snoc, if_neg hname]
      · exact grp L _ old hnw

end Opm.Manager
