import Verif.Proofs.WellsGroupCollection
import Verif.Props.WellsGroup
import Mathlib.Data.List.Nodup
/-!
# Properties of collections of well groups: the functions of `WellCollection`
-/

namespace Opm.Groups
open Opm Wells

theorem UnderControl.keep {s s' : W} {i : Int} {t : CtrlType} {g : Rat} {d : List Rat} (h : UnderControl s i t g d) (hk : Unchanged s s' i) :
    UnderControl s' i t g d := by
  obtain ⟨o, ho, k⟩ := h
  exact ⟨o, by rw [hk]; exact ho, k⟩

theorem Unchanged.trans {a b c : W} {i : Int} (h : Unchanged a b i) (h' : Unchanged b c i) : Unchanged a c i := by
  unfold Unchanged at *
  rw [h', h]

/-- All wells of all trees of the collection that share production target `p` of a group with children `cs`. -/
def SharesProd (pu : PhaseUsage) (ws : List Well) (s' : W) (p : ProdSpec) (cs : List Node) : Prop :=
  ∀ l ∈ leavesAll cs, typeOf ws l.self = .producer → l.prod.guideRate ≠ 0 →
    UnderControl s' l.self p.mode.ctrlType (-(p.limit p.mode * l.prod.guideRate / prodTotal (leavesAll cs))) (weights pu p.mode)

/-- The same for an injection target. -/
def SharesInj (np : Nat) (ws : List Well) (s' : W) (i : InjSpec) (cs : List Node) : Prop :=
  ∀ l ∈ leavesAll cs, typeOf ws l.self = .injector → l.inj.guideRate ≠ 0 →
    UnderControl s' l.self i.mode.ctrlType (i.limit * l.inj.guideRate / injTotal (leavesAll cs)) (List.replicate np 1)

theorem injView_of_fixed {ls ls' : List Leaf} (h : ls'.map Leaf.fixed = ls.map Leaf.fixed) : ls'.map Leaf.injView = ls.map Leaf.injView := by
  have e : ∀ l : List Leaf, l.map Leaf.injView = (l.map Leaf.fixed).map (fun x => x.2) := fun l => by simp [Leaf.injView, Leaf.fixed, Function.comp_def]
  rw [e ls', h, ← e ls]

/-- **C49.**  Applying the group controls of a whole collection: in all trees, production targets are shared among producers and injection targets among
injectors in proportion to guide rates; wells outside the trees and wells that belong to no group with a target for their kind are as before. -/
theorem group_controls_are_shared (J : Junk) {pu : PhaseUsage} (hu : pu.Valid) : ∀ (rs : List Node) {s : W} {ws : List Well}, WRep pu.num s ws →
    Placed ws (leavesAll rs) → ProdGuided ws (leavesAll rs) → InjGuided ws (leavesAll rs) → (∀ r ∈ rs, r.prodPasses ∧ r.injPasses) →
    (∀ r ∈ rs, ∀ x ∈ r.prodTops, ProdSharable x.2 ∧ x.1.mode.Available pu) → (∀ r ∈ rs, ∀ x ∈ r.injTops, InjSharable x.2) →
    ∃ rs' s' ws', applyGroupControls J pu rs s = .ok (rs', s') ∧ WRep pu.num s' ws' ∧ Placed ws' (leavesAll rs') ∧
      (leavesAll rs').map Leaf.fixed = (leavesAll rs).map Leaf.fixed ∧
      (∀ r ∈ rs, ∀ x ∈ r.prodTops, SharesProd pu ws s' x.1 x.2) ∧ (∀ r ∈ rs, ∀ x ∈ r.injTops, SharesInj pu.num ws s' x.1 x.2) ∧
      (∀ i : Nat, i < ws.length → (∀ l ∈ leavesAll rs, l.self ≠ i) → Unchanged s s' i) ∧
      (∀ l ∈ leavesAll rs, (typeOf ws l.self = .producer → ∀ r ∈ rs, ∀ x ∈ r.prodTops, l ∉ leavesAll x.2) →
        (typeOf ws l.self = .injector → ∀ r ∈ rs, ∀ x ∈ r.injTops, l ∉ leavesAll x.2) → Unchanged s s' l.self) ∧ ws'.length = ws.length
  | [], s, ws, h, hp, _, _, _, _, _ => ⟨[], s, ws, rfl, h, hp, rfl, by simp, by simp, fun _ _ _ => rfl, by simp [leavesAll], rfl⟩
  | n :: rs, s, ws, h, hp, hg, hi, hpass, hsp, hsi => by
    simp only [leavesAll] at hp hg hi
    obtain ⟨n1, s1, ws1, e1, h1, o1⟩ := applyProdControls_ok (J := J) hu n h hp.left (fun l hl => hg l (List.mem_append_left _ hl))
      (hpass n (by simp)).1 (hsp n (by simp))
    have v1 : n1.injView = n.injView := applyProdControls_view n s _ e1
    have tops : ∀ x ∈ n1.injTops, InjSharable x.2 := fun x hx => by
      obtain ⟨x', hx', -, e⟩ := injTops_same v1.symm hx
      exact injSharable_same e.symm (hsi n (by simp) x' hx')
    have hi1 : InjGuided ws1 n1.leaves := (InjGuided.same o1.fixed (fun l hl => hi l (List.mem_append_left _ hl))).mono o1.types
    obtain ⟨n2, s2, ws2, e2, h2, o2⟩ := applyInjControls_ok (J := J) hu.three n1 h1 o1.placed hi1 (injPasses_same v1 (hpass n (by simp)).2) tops
    have far : ∀ i : Nat, (∀ l ∈ n.leaves, l.self ≠ i) → ws2[i]? = ws[i]? := fun i hne => by
      rw [o2.others i (fun l hl e => by
        obtain ⟨l0, hl0, e0⟩ := mem_self o1.fixed hl
        exact hne l0 hl0 (by rw [e0, e])), o1.others i hne]
    have ty2 : ∀ i : Nat, (ws2[i]?).map Well.type = (ws[i]?).map Well.type := fun i => by rw [o2.types, o1.types]
    have near : ∀ l ∈ leavesAll rs, ∀ i : Nat, l.self = i → ws2[i]? = ws[i]? := fun l hl i e => far i (fun l' hl' e' => hp.disj hl' hl (by rw [e, e']))
    have gr : ProdGuided ws (leavesAll rs) := fun l hl => hg l (List.mem_append_right _ hl)
    have ir : InjGuided ws (leavesAll rs) := fun l hl => hi l (List.mem_append_right _ hl)
    obtain ⟨rs', s3, ws3, e3, h3, p3, f3, q3, r3, u3, v3, len3⟩ := group_controls_are_shared J hu rs h2 (hp.right.mono near) (gr.mono ty2) (ir.mono ty2)
      (fun r hr => hpass r (by simp [hr])) (fun r hr => hsp r (by simp [hr])) (fun r hr => hsi r (by simp [hr]))
    have len2 : ws2.length = ws.length := by rw [o2.len, o1.len]
    -- what the remaining trees leave alone
    have keep : ∀ l ∈ n.leaves, Unchanged s2 s3 l.self := fun l hl => by
      obtain ⟨i, ei, w, hw, -⟩ := hp.left.exist l hl
      have hlt : i < ws.length := (List.getElem?_eq_some_iff.1 hw).1
      rw [ei]
      exact u3 i (by omega) (fun l' hl' e' => hp.disj hl hl' (by rw [ei, e']))
    refine ⟨n2 :: rs', s3, ws3, ?_, h3, ?_, ?_, ?_, ?_, ?_, ?_, by omega⟩
    · unfold applyGroupControls
      simp only [e1, bind_ok, e2, e3]
    · refine ⟨?_, ?_⟩
      · simp only [leavesAll]
        rw [List.map_append, map_fixed_self f3, map_fixed_self o2.fixed, map_fixed_self o1.fixed, ← List.map_append]
        exact hp.nodup
      · intro l hl
        simp only [leavesAll] at hl
        rcases List.mem_append.1 hl with hl | hl
        · obtain ⟨i, ei, w, hw, hgc⟩ := o2.placed.exist l hl
          obtain ⟨l1, hl1, el1⟩ := mem_self o2.fixed hl
          obtain ⟨l0, hl0, el0⟩ := mem_self o1.fixed hl1
          have hlt : i < ws2.length := (List.getElem?_eq_some_iff.1 hw).1
          have hu : getWell s3 i = getWell s2 i := by
            have := keep l0 hl0
            unfold Unchanged at this
            rw [el0, el1, ei] at this
            exact this
          rw [h2.get i w hw] at hu
          have hl3 : i < ws3.length := by omega
          refine ⟨i, ei, ws3[i], List.getElem?_eq_getElem hl3, ?_⟩
          rw [h3.get i _ (List.getElem?_eq_getElem hl3)] at hu
          have hobs : ws3[i].obs = w.obs := by simpa using hu
          have c1 := obs_length (h3.slots_le (List.getElem?_eq_getElem hl3))
          have c2 := obs_length (h2.slots_le hw)
          rw [hobs] at c1
          omega
        · exact p3.exist l hl
    · simp only [leavesAll, List.map_append, f3, o2.fixed, o1.fixed]
    · intro r hr x hx l hl ht hgu
      rcases List.mem_cons.1 hr with rfl | hr
      · have hln := prodTops_leaves _ x hx l hl
        rcases o1.under h h1 hp.left hln ht with ⟨-, hn⟩ | ⟨t, g, d', ⟨y, hy, hly, rfl, rfl, rfl⟩, hc⟩
        · exact absurd (hn x hx hl) hgu
        · obtain rfl := prodTops_unique _ hp.left x hx y hy l hl hly
          refine (hc.keep ?_).keep (keep l hln)
          obtain ⟨i, ei, w, hw, -⟩ := hp.left.exist l hln
          have hlt : i < ws.length := (List.getElem?_eq_some_iff.1 hw).1
          rw [ei]
          refine o2.unchanged h1 h2 (by rw [o1.len]; exact hlt) (.inl ?_)
          rw [typeOf_same o1.types, ← ei, ht]
          simp
      · exact q3 r hr x hx l hl (by rw [typeOf_same ty2]; exact ht) hgu
    · intro r hr x hx l hl ht hgu
      rcases List.mem_cons.1 hr with rfl | hr
      · have hln := injTops_leaves _ x hx l hl
        obtain ⟨x', hx', ex, ev⟩ := injTops_same v1 hx
        have same := leavesAll_same ev
        obtain ⟨l', hl', ei', es'⟩ := mem_view same hl
        have hln' := injTops_leaves _ x' hx' l' hl'
        rcases o2.under h1 h2 o1.placed hln' (by rw [typeOf_same o1.types, es']; exact ht) with ⟨-, hn⟩ | ⟨t, g, d', ⟨y, hy, hly, rfl, rfl, rfl⟩, hc⟩
        · exact absurd (by rw [← ei']; exact hn x' hx' hl') hgu
        · obtain rfl := injTops_unique _ o1.placed x' hx' y hy l' hl' hly
          rw [ei', es', ex, injTotal_view _ _ same] at hc
          exact hc.keep (keep l hln)
      · exact r3 r hr x hx l hl (by rw [typeOf_same ty2]; exact ht) hgu
    · intro i hlt hne
      simp only [leavesAll] at hne
      have a1 : Unchanged s s1 i := o1.unchanged h h1 hlt (.inr (fun l hl => hne l (List.mem_append_left _ hl)))
      have a2 : Unchanged s1 s2 i := o2.unchanged h1 h2 (by rw [o1.len]; exact hlt) (.inr (fun l hl e => by
        obtain ⟨l0, hl0, e0⟩ := mem_self o1.fixed hl
        exact hne l0 (List.mem_append_left _ hl0) (by rw [e0, e])))
      exact (a1.trans a2).trans (u3 i (by omega) (fun l hl => hne l (List.mem_append_right _ hl)))
    · intro l hl hnp hni
      simp only [leavesAll] at hl
      rcases List.mem_append.1 hl with hl | hl
      · refine Unchanged.trans ?_ (keep l hl)
        obtain ⟨i, ei, w, hw, -⟩ := hp.left.exist l hl
        have hlt : i < ws.length := (List.getElem?_eq_some_iff.1 hw).1
        cases ht : typeOf ws l.self with
        | producer =>
          refine Unchanged.trans (b := s1) ?_ ?_
          · rcases o1.under h h1 hp.left hl ht with ⟨hu, -⟩ | ⟨t, g, d', ⟨y, hy, hly, -⟩, -⟩
            · exact hu
            · exact absurd hly (hnp ht n (by simp) y hy)
          · rw [ei]
            refine o2.unchanged h1 h2 (by rw [o1.len]; exact hlt) (.inl ?_)
            rw [typeOf_same o1.types, ← ei, ht]
            simp
        | injector =>
          refine Unchanged.trans (b := s1) ?_ ?_
          · rw [ei]
            refine o1.unchanged h h1 hlt (.inl ?_)
            rw [← ei, ht]
            simp
          · obtain ⟨l', hl', es'⟩ := mem_self o1.fixed.symm hl
            rcases o2.under h1 h2 o1.placed hl' (by rw [typeOf_same o1.types, es']; exact ht) with ⟨hu, -⟩ | ⟨t, g, d', ⟨y, hy, hly, -⟩, -⟩
            · rw [← es']; exact hu
            · obtain ⟨x, hx, -, ev⟩ := injTops_same v1.symm hy
              obtain ⟨l2, hl2, -, es2⟩ := mem_view (leavesAll_same ev) hly
              have hln2 := injTops_leaves _ x hx l2 hl2
              have : l2 = l := List.inj_on_of_nodup_map hp.left.nodup hln2 hl (by rw [es2, es'])
              subst this
              exact absurd hl2 (hni ht n (by simp) x hx)
      · obtain ⟨i, ei, w, hw, -⟩ := hp.right.exist l hl
        have hlt : i < ws.length := (List.getElem?_eq_some_iff.1 hw).1
        have hne : ∀ l' ∈ n.leaves, l'.self ≠ i := fun l' hl' e' => hp.disj hl' hl (by rw [ei, e'])
        have a1 : Unchanged s s1 i := o1.unchanged h h1 hlt (.inr hne)
        have a2 : Unchanged s1 s2 i := o2.unchanged h1 h2 (by rw [o1.len]; exact hlt) (.inr (fun l hl e => by
          obtain ⟨l0, hl0, e0⟩ := mem_self o1.fixed hl
          exact hne l0 hl0 (by rw [e0, e])))
        have a3 := v3 l hl (fun ht r hr => hnp (by rw [← typeOf_same ty2]; exact ht) r (by simp [hr]))
          (fun ht r hr => hni (by rw [← typeOf_same ty2]; exact ht) r (by simp [hr]))
        rw [ei] at a3 ⊢
        exact (a1.trans a2).trans a3

/-- **C72.**  The check of a whole collection answers yes exactly if all limits of all wells and groups of all its trees hold; then nothing is changed. -/
theorem collection_check_exact (J : Junk) {pu : PhaseUsage} (hu : pu.Valid) {bhp res surf : List Rat} {s : W} {ws : List Well} (h : WRep pu.num s ws)
    (hb : bhp.length = ws.length) (hr : res.length = pu.num * ws.length) (hs : surf.length = pu.num * ws.length) (rs : List Node)
    (hp : Placed ws (leavesAll rs)) (hsane : ∀ g ∈ groupsAll rs, g.1.Sane pu) :
    ((∀ n ∈ rs, AllHonoured pu bhp res surf s (typeOf ws) n) → collectionConditionsMet J pu bhp res surf rs s = .ok (true, rs, s)) ∧
    ((∃ n ∈ rs, ¬AllHonoured pu bhp res surf s (typeOf ws) n) → ∀ r, collectionConditionsMet J pu bhp res surf rs s = .ok r → r.1 = false) := by
  obtain ⟨h1, h2⟩ := collectionConditionsMet_ok (J := J) hu h hb hr hs rs hp hsane
  have e : AllOk pu bhp res surf ws (leavesAll rs) (groupsAll rs) ↔ ∀ n ∈ rs, AllHonoured pu bhp res surf s (typeOf ws) n := by
    clear h1 h2 hsane
    induction rs with
    | nil => simp [AllOk, leavesAll, groupsAll]
    | cons n rs ih =>
      simp only [leavesAll] at hp
      have ih := ih hp.right
      rw [List.forall_mem_cons, ← ih]
      have en : AllHonoured pu bhp res surf s (typeOf ws) n ↔ AllOk pu bhp res surf ws n.leaves n.groups := by
        unfold AllHonoured AllOk
        refine and_congr ?_ Iff.rfl
        exact forall₂_congr (fun l hl => (leafOk_iff h hp.left hl).symm)
      rw [en]
      unfold AllOk
      simp only [leavesAll, groupsAll, List.mem_append, or_imp, forall_and]
      tauto
  rw [e] at h1 h2
  refine ⟨h1, fun ⟨n, hn, hb⟩ => h2 (fun ha => hb (ha n hn))⟩

end Opm.Groups
