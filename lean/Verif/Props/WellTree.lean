import Verif.Proofs.WellTreeTargets
/-!
# Groups of wells built from a deck (C77, C78)
-/

namespace Opm.Manager
open Opm Wells Groups

/-- **C77.**  The hierarchy of a deck without surprises is built as the deck says: every name occurs once; the children of a group are exactly its members; the
wells are the names in `WELSPECS`, numbered in their order; and groups and wells have the specifications of their last records. -/
theorem hierarchy_of_the_deck {pm : Peaceman} {g : Grid} {perm : List Rat} {dk : FieldDeck} {specs : List WelspecsLine} {comp : List CompdatLine}
    (hs : dk.base.welspecs = some specs) (ha : Acceptable pm g perm dk.base specs comp) (ht : TreeOk dk specs) (hr : RecordsOk dk specs) :
    ∃ c, buildTree dk specs = .ok c ∧ c.leaves = specs.map WelspecsLine.name ∧ (namesAll c.roots).Nodup ∧
      (∀ a b, (∃ p i cs, Node.group b p i cs ∈ subsAll c.roots ∧ ∃ n ∈ cs, n.name = a) ↔ Member dk specs a b) ∧
      (∀ x, x ∈ namesAll c.roots ↔ ∃ a, Member dk specs a x ∨ Member dk specs x a) ∧
      (∀ x p i s q, Node.well x p i s q ∈ subsAll c.roots → ∃ k : Nat, s = k ∧ (specs.map WelspecsLine.name)[k]? = some x ∧ WellSpec dk x p i) ∧
      (∀ x p i cs, Node.group x p i cs ∈ subsAll c.roots → x ∉ specs.map WelspecsLine.name ∧ GroupSpec dk x p i) := by
  obtain ⟨c, e, k1, k2, k3, k4, k5⟩ := buildTree_ok hs ht hr (fun l hl => injModes_known (ha.injLines l hl).1) (fun l hl => prodModes_known (ha.prodLines l hl).1)
  refine ⟨c, e, k1, k2, fun a b => by rw [← k3, all_edges], fun x => ⟨k4 x, ?_⟩, ?_, ?_⟩
  · rintro ⟨a, hm | hm⟩
    · obtain ⟨p, i, ds, hG, -⟩ := (all_edges _ a x).1 ((k3 a x).2 hm)
      exact List.mem_map.2 ⟨_, hG, rfl⟩
    · obtain ⟨p, i, ds, hG, n, hc, rfl⟩ := (all_edges _ x a).1 ((k3 x a).2 hm)
      refine List.mem_map_of_mem (subsAll_trans _ _ hG n ?_)
      simp only [Node.subs, List.mem_cons]
      exact .inr (mem_subsAll.2 ⟨n, hc, self_mem_subs n⟩)
  · intro x p i s q hx
    rcases k5 _ (List.mem_map_of_mem (f := Node.label) hx) with ⟨-, h, -⟩ | ⟨k, h1, h2, h3⟩
    · simp [Node.label] at h
    · simp only [Node.label, Option.some.injEq, Prod.mk.injEq] at h2
      exact ⟨k, h2.1, h1, h3⟩
  · intro x p i cs hx
    rcases k5 _ (List.mem_map_of_mem (f := Node.label) hx) with ⟨h1, -, h2⟩ | ⟨k, -, h2, -⟩
    · exact ⟨h1, h2⟩
    · simp [Node.label] at h2

/-- **C78.**  The whole constructor, for a deck that can be read and whose group targets can be shared: every producer below a group with a production target
operates on its share of that target, in proportion to the guide rates of the deck; the same for injectors; and all wells that belong to no group with a target
of their kind are as the deck says. -/
theorem deck_group_targets (J : Junk) {pm : Peaceman} {g : Grid} {perm : List Rat} {dk : FieldDeck} {specs : List WelspecsLine} {comp : List CompdatLine}
    (hg : g.WellFormed) (hs : dk.base.welspecs = some specs) (hc : dk.base.compdat = some comp) (ha : Acceptable pm g perm dk.base specs comp)
    (ht : TreeOk dk specs) (hr : RecordsOk dk specs) (hp : ProdSharing dk specs) (hi : InjSharing dk specs) :
    ∃ rs s, wellsManager J pm g perm dk = .ok (some (rs, s)) ∧
      (∀ G l m, ProdTarget dk specs G l m → ∀ ns : List String, ns.Nodup → (∀ n, n ∈ ns ↔ Produces dk specs n ∧ Below dk specs n G) →
        ∀ (i : Nat) n, (specs.map WelspecsLine.name)[i]? = some n → n ∈ ns → guideRate dk n ≠ 0 →
          UnderControl s i m.ctrlType (-(l.limit m * guideRate dk n / (ns.map (guideRate dk)).sum)) (weightsOf (activePhases dk.base) m.phases)) ∧
      (∀ G l m, InjTarget dk specs G l m → ∀ ns : List String, ns.Nodup → (∀ n, n ∈ ns ↔ Injects dk specs n ∧ Below dk specs n G) →
        ∀ (i : Nat) n, (specs.map WelspecsLine.name)[i]? = some n → n ∈ ns → guideRate dk n ≠ 0 →
          UnderControl s i m.ctrlType (l.limit m * guideRate dk n / (ns.map (guideRate dk)).sum) (List.replicate (activePhases dk.base).length 1)) ∧
      (∀ (i : Nat) n, (specs.map WelspecsLine.name)[i]? = some n →
        (Produces dk specs n → ∀ G l m, ProdTarget dk specs G l m → ¬Below dk specs n G) →
        (Injects dk specs n → ∀ G l m, InjTarget dk specs G l m → ¬Below dk specs n G) →
          ∃ o, getWell s i = .ok o ∧ WellOk pm g perm dk.base specs comp n o) := by
  obtain ⟨b, hb⟩ := build_ok hg ha J
  obtain ⟨-, b1, -, b3, ⟨-, b5⟩, ws, hw, wl, hpu, hok⟩ := build_sound ha.dims hg hb
  have dn := declared_nodup ht.distinct
  rw [dn] at b1 wl hok
  have both : ∀ n ∈ injNamesOf dk.base, n ∉ prodNamesOf dk.base := by
    intro n hn
    obtain ⟨l, hl, rfl⟩ := List.mem_map.1 hn
    exact (ha.injLines l hl).2 _ (ha.injNames l hl) (matches_self _)
  obtain ⟨c, ec, k1, k2, k3, k4, k5⟩ := buildTree_ok hs ht hr (fun l hl => injModes_known (ha.injLines l hl).1) (fun l hl => prodModes_known (ha.prodLines l hl).1)
  have typed : ∀ n ∈ specs.map WelspecsLine.name, n ∈ injNamesOf dk.base ∨ n ∈ prodNamesOf dk.base := fun n hn => ha.typed n (by rw [dn]; exact hn)
  obtain ⟨rs, er, g1, g2, g3⟩ := wgrupcon_ok ht.distinct b1 b3 b5 both (dk.wgrupcon.getD []) hr.guide (fun L hL => nodeNow_start typed both (k5 L hL))
  have R : Ready dk specs rs := ⟨by rw [g2]; exact k2, fun a b => by rw [g1]; exact k3 a b, fun x hx => k4 x (by rw [← g2]; exact hx), g3⟩
  have valid := ((phaseUsage_valid dk.base.water dk.base.oil dk.base.gas).1 b.pu hpu)
  have all : ∀ x ∈ subsAll rs, x ∈ subsAll rs := fun x hx => hx
  -- types of wells
  have type : ∀ (i : Nat) n w, (specs.map WelspecsLine.name)[i]? = some n → ws[i]? = some w → (w.type = .producer ↔ n ∈ prodNamesOf dk.base) := by
    intro i n w hn hwi
    have hcon := (hok i n w hn hwi).control
    rcases hcon with ⟨h1, h2, -⟩ | ⟨h1, l, h2, -⟩
    · have h1 : w.type = .injector := h1
      rw [h1]
      exact ⟨fun h => (by cases h), fun h => absurd h h2⟩
    · have h1 : w.type = .producer := h1
      obtain ⟨_, _, e, hln, _⟩ := h2
      exact ⟨fun _ => (ha.prodLines l (by rw [e]; simp)).2 n (by rw [dn]; exact List.mem_of_getElem? hn) hln, fun _ => h1⟩
  have wat : ∀ (i : Nat) n, (specs.map WelspecsLine.name)[i]? = some n → ∃ w, ws[i]? = some w := fun i n hn =>
    ⟨_, List.getElem?_eq_getElem (by rw [wl]; exact (List.getElem?_eq_some_iff.1 hn).1)⟩
  have tyP : ∀ (i : Nat) n, (specs.map WelspecsLine.name)[i]? = some n → (typeOf ws i = .producer ↔ n ∈ prodNamesOf dk.base) := by
    intro i n hn
    obtain ⟨w, hwi⟩ := wat i n hn
    unfold typeOf
    rw [Int.toNat_natCast, hwi]
    exact type i n w hn hwi
  have tyI : ∀ (i : Nat) n, (specs.map WelspecsLine.name)[i]? = some n → (typeOf ws i = .injector ↔ n ∈ injNamesOf dk.base) := by
    intro i n hn
    have := tyP i n hn
    cases e : typeOf ws i with
    | producer =>
      rw [e] at this
      exact ⟨fun h => (by cases h), fun h => absurd (this.1 rfl) (both n h)⟩
    | injector =>
      rw [e] at this
      refine ⟨fun _ => ?_, fun _ => rfl⟩
      rcases typed n (List.mem_of_getElem? hn) with h | h
      · exact h
      · cases this.2 h
  have placed : Placed ws (leavesAll rs) := by
    refine ⟨R.selves, fun l hl => ?_⟩
    obtain ⟨i, n, h1, -, h2, h3, -⟩ := R.leaf all hl
    obtain ⟨w, hwi⟩ := wat i n h1
    exact ⟨i, h2, w, hwi, by rw [h3]; omega⟩
  have pg : ProdGuided ws (leavesAll rs) := by
    intro l hl
    obtain ⟨i, n, h1, -, h2, h3, w⟩ := R.leaf all hl
    rw [w.prodGuide]
    split
    · rename_i hpn
      refine ⟨guideRate_nonneg hr n, fun w' hw' hty => ?_⟩
      rw [h2, Int.toNat_natCast] at hw'
      rw [(type i n w' h1 hw').2 hpn] at hty
      cases hty
    · exact ⟨le_refl _, fun _ _ _ => rfl⟩
  have ig : InjGuided ws (leavesAll rs) := by
    intro l hl
    obtain ⟨i, n, h1, -, h2, h3, w⟩ := R.leaf all hl
    rw [w.injGuide]
    split
    · rename_i hpn
      refine ⟨guideRate_nonneg hr n, fun w' hw' hty => ?_⟩
      rw [h2, Int.toNat_natCast] at hw'
      exact absurd ((type i n w' h1 hw').1 hty) (both n hpn)
    · exact ⟨le_refl _, fun _ _ _ => rfl⟩
  have insub : ∀ r ∈ rs, ∀ x ∈ r.subs, x ∈ subsAll rs := fun r hr x hx => mem_subsAll.2 ⟨r, hr, hx⟩
  have pass : ∀ r ∈ rs, r.prodPasses ∧ r.injPasses := fun r hr =>
    ⟨node_prodPasses r (fun G p i cs hG => R.prodModes hp (insub r hr _ hG)), node_injPasses r (fun G p i cs hG => R.injModes hi (insub r hr _ hG))⟩
  have st : ∀ r ∈ rs, ∀ x ∈ r.prodTops, ProdSharable x.2 ∧ x.1.mode.Available b.pu := by
    intro r hrr x hx
    obtain ⟨h1, G, i, hG⟩ := node_prodTops r x hx
    have hG := insub r hrr _ hG
    refine ⟨R.prodSharable hr hp hG h1, ?_⟩
    obtain ⟨l, tg, -⟩ := R.prodTarget hG h1
    have oil : b.pu.used .liquid = true := valid.1.oil
    have wat' : x.1.mode = .wrat ∨ x.1.mode = .lrat → b.pu.used .aqua = true := fun h => by rw [valid.2.1]; exact hp.phases G l _ tg h
    rcases h1 with h1 | h1 | h1 | h1
    · exact .inr (by rw [h1]; simpa [ProdMode.phases] using oil)
    · exact .inr (by rw [h1]; simpa [ProdMode.phases] using wat' (.inl h1))
    · exact .inr (by rw [h1]; simpa [ProdMode.phases] using ⟨oil, wat' (.inr h1)⟩)
    · exact .inl h1
  have si : ∀ r ∈ rs, ∀ x ∈ r.injTops, InjSharable x.2 := by
    intro r hrr x hx
    obtain ⟨h1, G, p, hG⟩ := node_injTops r x hx
    exact R.injSharable hr hi (insub r hrr _ hG) h1
  obtain ⟨rs', s', ws', e', -, -, -, q1, q2, -, q4, -⟩ := group_controls_are_shared J valid.1 rs hw placed pg ig pass st si
  have num := (pu_cases hpu).1
  have notWell : ∀ {n G : String}, Below dk specs n G → G ∉ specs.map WelspecsLine.name := by
    intro n G h
    cases h with
    | single h => exact ht.parents _ _ h
    | tail _ h => exact ht.parents _ _ h
  refine ⟨rs', s', ?_, ?_, ?_, ?_⟩
  · unfold wellsManager wellsFromDeck
    rw [if_neg (by simp [ha.dims]), hs, hc]
    simp only
    rw [if_neg (by rw [not_and_or]; exact ha.keywords), hb, bind_ok, bind_ok]
    simp only
    unfold addGroups
    rw [ec, bind_ok, k1, er, bind_ok, e', bind_ok]
  · intro G l m tg ns hn hm i n hin hnn hgu
    obtain ⟨hpn, hbe⟩ := (hm n).1 hnn
    obtain ⟨p, j, cs, hG, em, el, htop⟩ := R.prodTop hp tg (notWell hbe)
    have hsub := subs_of_group hG
    obtain ⟨lf, hlf, sl, w⟩ := R.leaf_of hsub ht.distinct hin ((R.below hG n).2 hbe)
    obtain ⟨r, hrr, hx⟩ := mem_prodTopsAll.1 htop
    have hg' : lf.prod.guideRate = guideRate dk n := by rw [w.prodGuide, if_pos hpn.2, guideAfter_eq]
    have := q1 r hrr _ hx lf hlf (by rw [sl, tyP i n hin]; exact hpn.2) (by rw [hg']; exact hgu)
    simp only [em, el, hg', sl, R.prodTotal_eq hsub (R.nodupBelow hG) hn (fun n => by rw [hm, R.below hG]), weights_of_deck hpu] at this
    exact this
  · intro G l m tg ns hn hm i n hin hnn hgu
    obtain ⟨hpn, hbe⟩ := (hm n).1 hnn
    obtain ⟨p, j, cs, hG, em, el, htop⟩ := R.injTop hi tg (notWell hbe)
    have hsub := subs_of_group hG
    obtain ⟨lf, hlf, sl, w⟩ := R.leaf_of hsub ht.distinct hin ((R.below hG n).2 hbe)
    obtain ⟨r, hrr, hx⟩ := mem_injTopsAll.1 htop
    have hg' : lf.inj.guideRate = guideRate dk n := by rw [w.injGuide, if_pos hpn.2, guideAfter_eq]
    have := q2 r hrr _ hx lf hlf (by rw [sl, tyI i n hin]; exact hpn.2) (by rw [hg']; exact hgu)
    simp only [em, el, hg', sl, R.injTotal_eq hsub (R.nodupBelow hG) hn (fun n => by rw [hm, R.below hG]), num] at this
    exact this
  · intro i n hin h1 h2
    have hnn := List.mem_of_getElem? hin
    obtain ⟨l0, hl0, rfl⟩ := List.mem_map.1 hnn
    have hmem : l0.name ∈ namesAll rs := (R.has (.inr ⟨l0, hl0, rfl, rfl⟩)).1
    obtain ⟨lf, hlf, sl, w⟩ := R.leaf_of all ht.distinct hin hmem
    have out : ∀ {cs : List Node}, (∀ x ∈ subsAll cs, x ∈ subsAll rs) → lf ∈ leavesAll cs → l0.name ∈ namesAll cs := by
      intro cs hsub hlc
      obtain ⟨k, n', h3, h4, h5, -, -⟩ := R.leaf hsub hlc
      have : k = i := by omega
      subst this
      rw [hin] at h3
      cases h3
      exact h4
    have un := q4 lf hlf (by
      rw [sl, tyP i _ hin]
      intro hpn r hrr x hx hlx
      obtain ⟨t1, G, j, hG⟩ := node_prodTops r x hx
      have hG := insub r hrr _ hG
      obtain ⟨l, tg, -⟩ := R.prodTarget hG t1
      exact h1 ⟨hnn, hpn⟩ G l _ tg ((R.below hG _).1 (out (subs_of_group hG) hlx))) (by
      rw [sl, tyI i _ hin]
      intro hpn r hrr x hx hlx
      obtain ⟨t1, G, j, hG⟩ := node_injTops r x hx
      have hG := insub r hrr _ hG
      obtain ⟨l, tg, -⟩ := R.injTarget hG t1
      exact h2 ⟨hnn, hpn⟩ G l _ tg ((R.below hG _).1 (out (subs_of_group hG) hlx)))
    obtain ⟨w', hwi⟩ := wat i _ hin
    refine ⟨w'.obs, ?_, hok i _ w' hin hwi⟩
    unfold Unchanged at un
    rw [sl, Int.toNat_natCast] at un
    rw [un]
    exact hw.get i w' hwi

end Opm.Manager
