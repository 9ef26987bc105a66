import Verif.Spec.WellsGroup
import Verif.Proofs.Wells
import Mathlib.Tactic.Linarith
import Mathlib.Tactic.FieldSimp
import Mathlib.Algebra.BigOperators.Group.List.Basic
import Mathlib.Algebra.Order.BigOperators.Group.List
/-! # Proofs for well groups: group controls -/

namespace Opm.Groups
open Opm Wells

/-! ### Setting the control of one well -/

/-- The well after its group control has been set. -/
def groupControl (np : Nat) (t : CtrlType) (g : Rat) (d : List Rat) (gci : Int) (w : Well) : Well :=
  if gci < 0 then { w.addControl np t g (some d) with current := w.controls.length }
  else { w with controls := w.controls.set gci.toNat (t, g), slots := w.slots.set gci.toNat d, current := gci }

/-- The group control index afterwards. -/
def newGci (gci : Int) (w : Well) : Int := if gci < 0 then w.controls.length else gci

theorem crep_set {np : Nat} {c : Controls} {w : Well} (h : CRep np c w) (t : CtrlType) (g : Rat) {d : List Rat} (hd : np ≤ d.length)
    {k : Nat} (hk : k < w.controls.length) (cur : Int) :
    k < c.type.length ∧ k < c.target.length ∧ ∃ D, memcpy c.distr (np * k) d np = .ok D ∧
      CRep np { c with type := c.type.set k t, target := c.target.set k g, distr := D, current := cur }
        { w with controls := w.controls.set k (t, g), slots := w.slots.set k (d.take np), current := cur } := by
  have hs := h.hs
  have hc := h.hc
  have h3 := h.lty
  have h4 := h.lta
  have hks : k < w.slots.length := by omega
  obtain ⟨r, hr⟩ : ∃ r, w.slots[k]? = some r := ⟨_, List.getElem?_eq_getElem hks⟩
  have hrl := h.rows r (List.mem_of_getElem? hr)
  have hpre : ((w.slots.take k).flatten).length = np * k := by
    rw [length_flatten_rows (fun r hr => h.rows r (List.mem_of_mem_take hr)), List.length_take, Nat.min_eq_left (by omega), Nat.mul_comm]
  have hset : ∀ v, (w.slots.set k v).flatten = (w.slots.take k).flatten ++ (v ++ (w.slots.drop (k + 1)).flatten) := by
    intro v
    rw [List.set_eq_take_append_cons_drop, if_pos hks, List.flatten_append, List.flatten_cons]
  refine ⟨by omega, by omega, _, by rw [h.distr, flatten_split hr, List.append_assoc, List.append_assoc, memcpy_mid hpre hrl hd], ?_⟩
  refine ⟨by simp [h.num], rfl, by simpa using h3, by simpa using h4, by simpa using hs, by simpa using hc, ?_, ?_, ?_, ?_⟩
  · intro x hx
    rcases List.mem_or_eq_of_mem_set hx with h5 | h5
    · exact h.rows x h5
    · subst h5; rw [List.length_take, Nat.min_eq_left hd]
  · simp only
    rw [hset, List.length_set]
    simp
  · simp only [List.length_set]
    rw [List.map_set, ← h.types, List.take_set]
  · simp only [List.length_set]
    rw [List.map_set, ← h.targets, List.take_set]

theorem modify_congr {α : Type} {l : List α} {i : Nat} {a : α} (h : l[i]? = some a) {f g : α → α} (e : f a = g a) : l.modify i f = l.modify i g := by
  apply List.ext_getElem?
  intro k
  rw [List.getElem?_modify, List.getElem?_modify]
  by_cases hk : i = k
  · subst hk; simp [h, e]
  · simp [hk]

theorem setGroupControl_ok {np : Nat} {s : W} {ws : List Well} (h : WRep np s ws) (J : Junk) (t : CtrlType) (g : Rat) {d : List Rat}
    (hd : np ≤ d.length) {i : Nat} {w : Well} (hw : ws[i]? = some w) {gci : Int} (hg : gci < w.controls.length) :
    ∃ s', setGroupControl J t g d i gci s = .ok (newGci gci w, s') ∧ WRep np s' (ws.modify i (groupControl np t g (d.take np) gci)) := by
  have hi := (List.getElem?_eq_some_iff.1 hw).1
  unfold setGroupControl
  by_cases hneg : gci < 0
  · rw [if_pos hneg]
    obtain ⟨s1, e1, r1⟩ := h.appendControls J t g (some d) (fun l hl => by cases hl; exact hd) i hi
    rw [e1, bind_ok]
    have hw1 : (ws.modify i (Well.addControl np t g ((some d).map (List.take np))))[i]? = some (w.addControl np t g (some (d.take np))) := by
      rw [List.getElem?_modify_eq, hw]; rfl
    obtain ⟨c, hc, hr, _⟩ := r1.ctrlAt i _ hw1
    have hn : (c.num : Int) - 1 = w.controls.length := by
      rw [hr.num]; unfold Well.addControl; simp
    rw [rdI_natCast, rd_of_getElem? hc, bind_ok, hn]
    obtain ⟨s2, e2, r2⟩ := r1.setCurrent i _ hw1 (w.controls.length : Int) (by unfold Well.addControl; simp)
    rw [e2, bind_ok]
    refine ⟨s2, by unfold newGci; rw [if_pos hneg], ?_⟩
    rw [List.modify_modify_eq] at r2
    have : ws.modify i (groupControl np t g (d.take np) gci)
        = ws.modify i ((fun x : Well => { x with current := (w.controls.length : Int) }) ∘ Well.addControl np t g ((some d).map (List.take np))) := by
      apply modify_congr hw
      unfold groupControl
      rw [if_pos hneg]
      rfl
    rw [this]
    exact r2
  · rw [if_neg hneg]
    obtain ⟨k, rfl⟩ : ∃ k : Nat, gci = k := ⟨gci.toNat, by omega⟩
    have hk : k < w.controls.length := by omega
    obtain ⟨c, hc, hr, hl⟩ := h.ctrlAt i _ hw
    obtain ⟨l1, l2, D, eD, rD⟩ := crep_set hr t g hd hk k
    have hnp := h.hnp
    subst hnp
    rw [rdI_natCast, rd_of_getElem? hc, bind_ok, wrI_natCast, wr_ok l1, bind_ok, wrI_natCast, wr_ok l2, bind_ok, Int.toNat_natCast, eD, bind_ok,
      wrI_natCast, wr_ok hl, bind_ok]
    unfold setCurrentControl
    simp only
    rw [check_ok (by rw [h.nw]; simpa using hi), bind_ok, rdI_natCast, rd_of_getElem? (by rw [List.getElem?_set_self hl]), bind_ok,
      check_ok (by simp only; rw [hr.num]; simpa using hk), bind_ok, wrI_natCast, wr_ok (by simpa using hl), bind_ok, bind_ok, List.set_set]
    refine ⟨_, by unfold newGci; rw [if_neg hneg], ?_⟩
    refine h.setCtrl i _ hw _ _ ?_ ?_
    · intro x
      unfold groupControl
      rw [if_neg hneg]
      exact ⟨rfl, rfl, rfl, rfl, rfl, rfl⟩
    · unfold groupControl
      rw [if_neg hneg]
      exact rD

theorem groupControl_length {np : Nat} {t : CtrlType} {g : Rat} {d : List Rat} {gci : Int} {w : Well} (hg : gci < w.controls.length) :
    newGci gci w < (groupControl np t g d gci w).controls.length ∧ 0 ≤ newGci gci w := by
  unfold newGci groupControl
  split
  · simp [Well.addControl]
  · simp only [List.length_set]; omega

theorem groupControl_type {np : Nat} {t : CtrlType} {g : Rat} {d : List Rat} {gci : Int} {w : Well} :
    (groupControl np t g d gci w).type = w.type := by
  unfold groupControl
  split <;> rfl

theorem zip_get {w : Well} {k : Nat} {x : CtrlType × Rat} {y : List Rat} (h1 : w.controls[k]? = some x) (h2 : w.slots[k]? = some y) :
    w.obs.controls[k]? = some (x.1, x.2, y) := by
  unfold Well.obs
  simp only [List.getElem?_map]
  have : (w.controls.zip w.slots)[k]? = some (x, y) := List.getElem?_zip_eq_some.2 ⟨h1, h2⟩
  rw [this]
  rfl

theorem groupControl_obs {np : Nat} {t : CtrlType} {g : Rat} {d : List Rat} {gci : Int} {w : Well} (hs : w.controls.length ≤ w.slots.length)
    (hg : gci < w.controls.length) :
    ∃ k : Nat, (groupControl np t g d gci w).obs.current = k ∧ (groupControl np t g d gci w).obs.controls[k]? = some (t, g, d) := by
  unfold groupControl
  split
  · refine ⟨w.controls.length, rfl, ?_⟩
    refine zip_get (x := (t, g)) ?_ ?_
    · unfold Well.addControl; simp
    · unfold Well.addControl
      simp only
      split
      · rename_i hlt
        rw [List.getElem?_set_self hlt]; rfl
      · have : w.controls.length = w.slots.length := by omega
        rw [this]; simp
  · rename_i hneg
    refine ⟨gci.toNat, by simp [Well.obs]; omega, ?_⟩
    refine zip_get (x := (t, g)) ?_ ?_
    · exact List.getElem?_set_self (by omega)
    · exact List.getElem?_set_self (by omega)

theorem _root_.Opm.Wells.WRep.slots_le {np : Nat} {s : W} {ws : List Well} (h : WRep np s ws) {i : Nat} {w : Well} (hw : ws[i]? = some w) :
    w.controls.length ≤ w.slots.length := by
  obtain ⟨c, _, hr, _⟩ := h.ctrlAt i w hw
  exact hr.hs

theorem _root_.Opm.Wells.WRep.type_at {np : Nat} {s : W} {ws : List Well} (h : WRep np s ws) {i : Nat} {w : Well} (hw : ws[i]? = some w) :
    rdI s.type i = .ok w.type := by
  have hi := (List.getElem?_eq_some_iff.1 hw).1
  rw [rdI_natCast]
  apply rd_of_getElem?
  have h1 : (s.type.take ws.length)[i]? = some w.type := by rw [h.type, List.getElem?_map, hw]; rfl
  rw [List.getElem?_take_of_lt hi] at h1
  exact h1

/-! ### Leaves -/

theorem Placed.mono {ws ws' : List Well} {ls : List Leaf} (h : Placed ws ls)
    (hk : ∀ l ∈ ls, ∀ i : Nat, l.self = i → ws'[i]? = ws[i]?) : Placed ws' ls := by
  refine ⟨h.nodup, fun l hl => ?_⟩
  obtain ⟨i, hi, w, hw, hg⟩ := h.exist l hl
  exact ⟨i, hi, w, by rw [hk l hl i hi]; exact hw, hg⟩

theorem Placed.left {ws : List Well} {a b : List Leaf} (h : Placed ws (a ++ b)) : Placed ws a := by
  refine ⟨?_, fun l hl => h.exist l (List.mem_append_left _ hl)⟩
  have := h.nodup
  rw [List.map_append] at this
  exact (List.nodup_append.1 this).1

theorem Placed.right {ws : List Well} {a b : List Leaf} (h : Placed ws (a ++ b)) : Placed ws b := by
  refine ⟨?_, fun l hl => h.exist l (List.mem_append_right _ hl)⟩
  have := h.nodup
  rw [List.map_append] at this
  exact (List.nodup_append.1 this).2.1

theorem Placed.disj {ws : List Well} {a b : List Leaf} (h : Placed ws (a ++ b)) {x y : Leaf} (hx : x ∈ a) (hy : y ∈ b) : x.self ≠ y.self := by
  have := h.nodup
  rw [List.map_append] at this
  exact (List.nodup_append.1 this).2.2 _ (List.mem_map_of_mem hx) _ (List.mem_map_of_mem hy)

/-! ### What a call does to the wells of a subtree -/

/-- The outcome of distributing controls over the wells `ls` of type `ty`: each gets a control with property `Q`, or is left alone if `N` holds. -/
structure Outcome (np : Nat) (ty : WellType) (Q : Leaf → CtrlType → Rat → List Rat → Prop) (N : Leaf → Prop) (ls ls' : List Leaf)
    (ws ws' : List Well) : Prop where
  fixed : ls'.map Leaf.fixed = ls.map Leaf.fixed
  placed : Placed ws' ls'
  len : ws'.length = ws.length
  types : ∀ i : Nat, (ws'[i]?).map Well.type = (ws[i]?).map Well.type
  others : ∀ i : Nat, (∀ l ∈ ls, l.self ≠ i) → ws'[i]? = ws[i]?
  same : ∀ l ∈ ls, ∀ (i : Nat) w, l.self = i → ws[i]? = some w → w.type ≠ ty → ws'[i]? = some w
  set : ∀ l ∈ ls, ∀ (i : Nat) w, l.self = i → ws[i]? = some w → w.type = ty →
    (ws'[i]? = some w ∧ N l) ∨ ∃ (gci : Int) (t : CtrlType) (g : Rat) (d : List Rat), Q l t g d ∧ gci < w.controls.length ∧
      ws'[i]? = some (groupControl np t g d gci w)

theorem Outcome.refl {np : Nat} {ty : WellType} {Q : Leaf → CtrlType → Rat → List Rat → Prop} {N : Leaf → Prop} {ls : List Leaf} {ws : List Well}
    (hp : Placed ws ls) (h0 : ∀ l ∈ ls, N l) : Outcome np ty Q N ls ls ws ws :=
  ⟨rfl, hp, rfl, fun _ => rfl, fun _ _ => rfl, fun _ _ _ _ _ hw _ => hw, fun l hl _ _ _ hw _ => .inl ⟨hw, h0 l hl⟩⟩

theorem Outcome.weaken {np : Nat} {ty : WellType} {Q Q' : Leaf → CtrlType → Rat → List Rat → Prop} {N N' : Leaf → Prop} {ls ls' : List Leaf}
    {ws ws' : List Well} (h : Outcome np ty Q N ls ls' ws ws') (hQ : ∀ l ∈ ls, ∀ t g d, Q l t g d → Q' l t g d) (hN : ∀ l ∈ ls, N l → N' l) :
    Outcome np ty Q' N' ls ls' ws ws' := by
  refine ⟨h.fixed, h.placed, h.len, h.types, h.others, h.same, ?_⟩
  intro l hl i w hi hw hty
  rcases h.set l hl i w hi hw hty with ⟨h1, h2⟩ | ⟨gci, t, g, d, hq, h1, h2⟩
  · exact .inl ⟨h1, hN l hl h2⟩
  · exact .inr ⟨gci, t, g, d, hQ l hl t g d hq, h1, h2⟩

theorem map_fixed_self {ls ls' : List Leaf} (h : ls'.map Leaf.fixed = ls.map Leaf.fixed) : ls'.map (·.self) = ls.map (·.self) := by
  have := congrArg (List.map (fun x : ProdSpec × InjSpec × Int => x.2.2)) h
  simpa [List.map_map, Leaf.fixed, Function.comp_def] using this

theorem mem_self {ls ls' : List Leaf} (h : ls'.map Leaf.fixed = ls.map Leaf.fixed) {l : Leaf} (hl : l ∈ ls') : ∃ l0 ∈ ls, l0.self = l.self := by
  have : l.self ∈ ls'.map (·.self) := List.mem_map_of_mem hl
  rw [map_fixed_self h] at this
  obtain ⟨l0, h0, e⟩ := List.mem_map.1 this
  exact ⟨l0, h0, e⟩

/-- Two disjoint parts of a tree are treated one after the other. -/
theorem Outcome.append {np : Nat} {ty : WellType} {Q : Leaf → CtrlType → Rat → List Rat → Prop} {N : Leaf → Prop} {a a' b b' : List Leaf} {ws ws1 ws2 : List Well}
    (hp : Placed ws (a ++ b)) (h1 : Outcome np ty Q N a a' ws ws1) (h2 : Outcome np ty Q N b b' ws1 ws2) :
    Outcome np ty Q N (a ++ b) (a' ++ b') ws ws2 := by
  have hself : ∀ l ∈ a ++ b, ∃ i : Nat, l.self = i := fun l hl => by
    obtain ⟨i, hi, _⟩ := hp.exist l hl
    exact ⟨i, hi⟩
  have ka : ∀ l ∈ a, ∀ i : Nat, l.self = i → ws2[i]? = ws1[i]? := fun l hl i hi =>
    h2.others i (fun l' hl' e => hp.disj hl hl' (by rw [hi, e]))
  have kb : ∀ l ∈ b, ∀ i : Nat, l.self = i → ws1[i]? = ws[i]? := fun l hl i hi =>
    h1.others i (fun l' hl' e => hp.disj hl' hl (by rw [hi, e]))
  refine ⟨by simp [h1.fixed, h2.fixed], ?_, by rw [h2.len, h1.len], fun i => by rw [h2.types, h1.types], ?_, ?_, ?_⟩
  · refine ⟨?_, ?_⟩
    · rw [List.map_append, map_fixed_self h1.fixed, map_fixed_self h2.fixed, ← List.map_append]
      exact hp.nodup
    · intro l hl
      rcases List.mem_append.1 hl with hl | hl
      · obtain ⟨i, hi, w, hw, hg⟩ := h1.placed.exist l hl
        obtain ⟨l0, hl0, e0⟩ := mem_self h1.fixed hl
        exact ⟨i, hi, w, by rw [ka l0 hl0 i (by rw [e0]; exact hi)]; exact hw, hg⟩
      · exact h2.placed.exist l hl
  · intro i hi
    rw [h2.others i (fun l hl => hi l (List.mem_append_right _ hl)), h1.others i (fun l hl => hi l (List.mem_append_left _ hl))]
  · intro l hl i w hi hw hty
    rcases List.mem_append.1 hl with hl | hl
    · rw [ka l hl i hi]; exact h1.same l hl i w hi hw hty
    · exact h2.same l hl i w hi (by rw [kb l hl i hi]; exact hw) hty
  · intro l hl i w hi hw hty
    rcases List.mem_append.1 hl with hl | hl
    · rw [ka l hl i hi]; exact h1.set l hl i w hi hw hty
    · exact h2.set l hl i w hi (by rw [kb l hl i hi]; exact hw) hty

/-- One well whose control is set. -/
theorem Outcome.single {np : Nat} {ty : WellType} {Q : Leaf → CtrlType → Rat → List Rat → Prop} {N : Leaf → Prop} {t : CtrlType} {d : List Rat} {l : Leaf} {ws : List Well} {i : Nat} {w : Well}
    (hi : l.self = i) (hw : ws[i]? = some w) (hg : l.gci < w.controls.length) (hty : w.type = ty) {g : Rat} (hs : Q l t g d) :
    Outcome np ty Q N [l] [{ l with gci := newGci l.gci w }] ws (ws.modify i (groupControl np t g d l.gci)) := by
  have hm : (ws.modify i (groupControl np t g d l.gci))[i]? = some (groupControl np t g d l.gci w) := by
    rw [List.getElem?_modify_eq, hw]; rfl
  refine ⟨rfl, ⟨by simp, ?_⟩, by simp, ?_, ?_, ?_, ?_⟩
  · intro l' hl'
    rw [List.mem_singleton] at hl'
    subst hl'
    exact ⟨i, hi, _, hm, (groupControl_length hg).1⟩
  · intro k
    rw [List.getElem?_modify]
    by_cases hk : i = k
    · subst hk; rw [hw]; simp [groupControl_type]
    · simp [hk]
  · intro k hk
    have : i ≠ k := fun e => hk l (by simp) (by rw [hi, e])
    rw [List.getElem?_modify]
    simp [this]
  · intro l' hl' k w' hk hw' hne
    rw [List.mem_singleton] at hl'
    subst hl'
    rw [hi] at hk
    have : i = k := by exact_mod_cast hk
    subst this
    rw [hw] at hw'
    cases hw'
    exact absurd hty hne
  · intro l' hl' k w' hk hw' _
    rw [List.mem_singleton] at hl'
    subst hl'
    rw [hi] at hk
    have : i = k := by exact_mod_cast hk
    subst this
    rw [hw] at hw'
    cases hw'
    exact .inr ⟨l'.gci, t, g, d, hs, hg, hm⟩

/-- The well gets the control `(t, d)` with target `sign * ρ * guide l`. -/
def Share (t : CtrlType) (d : List Rat) (share : Leaf → Rat) (l : Leaf) (t' : CtrlType) (g : Rat) (d' : List Rat) : Prop :=
  t' = t ∧ g = share l ∧ d' = d

/-! ### Production -/

theorem prodControl_ok {pu : PhaseUsage} {m : ProdMode} {t : CtrlType} {d : List Rat} (h : prodControl pu m = .ok (t, d)) : d.length = 3 := by
  cases m <;> simp only [prodControl] at h <;> try cases h
  all_goals first
    | rfl
    | (split at h
       · cases h
       · first
         | (obtain ⟨d1, e1, h⟩ := bind_eq_ok.1 h
            obtain ⟨_, rfl⟩ := wr_eq_ok.1 e1
            cases h; simp)
         | (split at h
            · cases h
            · obtain ⟨d1, e1, h⟩ := bind_eq_ok.1 h
              obtain ⟨_, rfl⟩ := wr_eq_ok.1 e1
              obtain ⟨d2, e2, h⟩ := bind_eq_ok.1 h
              obtain ⟨_, rfl⟩ := wr_eq_ok.1 e2
              cases h; simp))

mutual
theorem prodGuide_false : ∀ n : Node, n.prodGuide false = prodTotal n.leaves
  | .well n p i self gci => by simp [Node.prodGuide, Node.leaves, prodTotal]
  | .group n p i cs => by
    simp only [Node.prodGuide, Node.leaves, prodGuides_false cs]
theorem prodGuides_false : ∀ cs : List Node, prodGuides false cs = prodTotal (leavesAll cs)
  | [] => by simp [prodGuides, leavesAll, prodTotal]
  | c :: cs => by
    simp only [prodGuides, leavesAll, prodGuide_false c, prodGuides_false cs, prodTotal, List.map_append, List.sum_append]
end

mutual
theorem injGuide_false : ∀ n : Node, n.injGuide false = injTotal n.leaves
  | .well n p i self gci => by simp [Node.injGuide, Node.leaves, injTotal]
  | .group n p i cs => by
    simp only [Node.injGuide, Node.leaves, injGuides_false cs]
theorem injGuides_false : ∀ cs : List Node, injGuides false cs = injTotal (leavesAll cs)
  | [] => by simp [injGuides, leavesAll, injTotal]
  | c :: cs => by
    simp only [injGuides, leavesAll, injGuide_false c, injGuides_false cs, injTotal, List.map_append, List.sum_append]
end

theorem sum_zero {α : Type} {l : List α} {f : α → Rat} (h0 : ∀ x ∈ l, 0 ≤ f x) (hs : (l.map f).sum = 0) : ∀ x ∈ l, f x = 0 := by
  induction l with
  | nil => intro x hx; cases hx
  | cons a l ih =>
    rw [List.map_cons, List.sum_cons] at hs
    have ha := h0 a (by simp)
    have hl : 0 ≤ (l.map f).sum := List.sum_nonneg (by
      intro y hy
      obtain ⟨x, hx, rfl⟩ := List.mem_map.1 hy
      exact h0 x (by simp [hx]))
    intro x hx
    rcases List.mem_cons.1 hx with rfl | hx
    · linarith
    · exact ih (fun x hx => h0 x (by simp [hx])) (by linarith) x hx

/-- Wells of the given tree remain placed and guided while other wells change. -/
theorem ProdGuided.mono {ws ws' : List Well} {ls : List Leaf} (h : ProdGuided ws ls) (ht : ∀ i : Nat, (ws'[i]?).map Well.type = (ws[i]?).map Well.type) :
    ProdGuided ws' ls := by
  intro l hl
  obtain ⟨h1, h2⟩ := h l hl
  refine ⟨h1, fun w hw hty => ?_⟩
  have := ht l.self.toNat
  rw [hw, Option.map_some] at this
  obtain ⟨w0, hw0, e0⟩ := Option.map_eq_some_iff.1 this.symm
  exact h2 w0 hw0 (by rw [e0]; exact hty)

theorem InjGuided.mono {ws ws' : List Well} {ls : List Leaf} (h : InjGuided ws ls) (ht : ∀ i : Nat, (ws'[i]?).map Well.type = (ws[i]?).map Well.type) :
    InjGuided ws' ls := by
  intro l hl
  obtain ⟨h1, h2⟩ := h l hl
  refine ⟨h1, fun w hw hty => ?_⟩
  have := ht l.self.toNat
  rw [hw, Option.map_some] at this
  obtain ⟨w0, hw0, e0⟩ := Option.map_eq_some_iff.1 this.symm
  exact h2 w0 hw0 (by rw [e0]; exact hty)

theorem wellApplyProd_ok {J : Junk} {pu : PhaseUsage} {m : ProdMode} {t : CtrlType} {d : List Rat} (hc : prodControl pu m = .ok (t, d)) (hd : pu.num ≤ d.length)
    {s : W} {ws : List Well} (h : WRep pu.num s ws) {l : Leaf} (hp : Placed ws [l]) {target : Rat} (ρ : Rat) (hρ : target = ρ * l.prod.guideRate)
    (hg : ProdGuided ws [l]) :
    ∃ gci' s' ws', wellApplyProd J pu m target l.self l.gci s = .ok (gci', s') ∧ WRep pu.num s' ws' ∧
      Outcome pu.num .producer (Share t (d.take pu.num) (fun l => -(ρ * l.prod.guideRate))) (fun l => l.prod.guideRate = 0) [l] [{ l with gci := gci' }] ws ws' := by
  obtain ⟨i, hi, w, hw, hgc⟩ := hp.exist l (by simp)
  obtain ⟨h0, h1⟩ := hg l (by simp)
  obtain ⟨p, q, self, gci⟩ := l
  simp only at hi hgc h0 h1 hρ
  subst hi
  unfold wellApplyProd
  simp only
  rw [h.type_at hw, bind_ok]
  by_cases hty : w.type = .producer
  · rw [if_neg (by simp [hty]), hc, bind_ok]
    obtain ⟨s', e, r⟩ := setGroupControl_ok h J t (-target) hd hw hgc
    refine ⟨_, s', _, e, r, ?_⟩
    exact Outcome.single (l := ⟨p, q, i, gci⟩) rfl hw hgc hty ⟨rfl, by rw [hρ], rfl⟩
  · rw [if_pos (by simpa using hty)]
    have hg0 : p.guideRate = 0 := h1 w (by simpa using hw) (by
      cases hh : w.type with
      | injector => rfl
      | producer => exact absurd hh hty)
    rw [check_ok (by rw [hρ, hg0]; simp), bind_ok]
    refine ⟨gci, s, ws, rfl, h, ?_⟩
    exact Outcome.refl hp (fun l' hl' => by rw [List.mem_singleton] at hl'; rw [hl']; exact hg0)

theorem wellApplyInj_ok {J : Junk} {np : Nat} {m : InjMode} {t : CtrlType} {d : List Rat} (hc : injControl m = .ok (t, d)) (hd : np ≤ d.length)
    {s : W} {ws : List Well} (h : WRep np s ws) {l : Leaf} (hp : Placed ws [l]) {target : Rat} (ρ : Rat) (hρ : target = ρ * l.inj.guideRate)
    (hg : InjGuided ws [l]) :
    ∃ gci' s' ws', wellApplyInj J m target l.self l.gci s = .ok (gci', s') ∧ WRep np s' ws' ∧
      Outcome np .injector (Share t (d.take np) (fun l => ρ * l.inj.guideRate)) (fun l => l.inj.guideRate = 0) [l] [{ l with gci := gci' }] ws ws' := by
  obtain ⟨i, hi, w, hw, hgc⟩ := hp.exist l (by simp)
  obtain ⟨h0, h1⟩ := hg l (by simp)
  obtain ⟨p, q, self, gci⟩ := l
  simp only at hi hgc h0 h1 hρ
  subst hi
  unfold wellApplyInj
  simp only
  rw [h.type_at hw, bind_ok]
  by_cases hty : w.type = .injector
  · rw [if_neg (by simp [hty]), hc, bind_ok]
    obtain ⟨s', e, r⟩ := setGroupControl_ok h J t target hd hw hgc
    refine ⟨_, s', _, e, r, ?_⟩
    exact Outcome.single (l := ⟨p, q, i, gci⟩) rfl hw hgc hty ⟨rfl, by rw [hρ], rfl⟩
  · rw [if_pos (by simpa using hty)]
    have hg0 : q.guideRate = 0 := h1 w (by simpa using hw) (by
      cases hh : w.type with
      | injector => exact absurd hh hty
      | producer => rfl)
    rw [check_ok (by rw [hρ, hg0]; simp), bind_ok]
    refine ⟨gci, s, ws, rfl, h, ?_⟩
    exact Outcome.refl hp (fun l' hl' => by rw [List.mem_singleton] at hl'; rw [hl']; exact hg0)

mutual
theorem applyProd_ok {J : Junk} {pu : PhaseUsage} {m : ProdMode} {t : CtrlType} {d : List Rat} (hc : prodControl pu m = .ok (t, d)) (hd : pu.num ≤ d.length)
    (ρ : Rat) : ∀ (n : Node) {s : W} {ws : List Well}, WRep pu.num s ws → Placed ws n.leaves → ProdGuided ws n.leaves →
    ∃ n' s' ws', n.applyProd J pu m (ρ * n.prodGuide false) true s = .ok (n', s') ∧ WRep pu.num s' ws' ∧
      Outcome pu.num .producer (Share t (d.take pu.num) (fun l => -(ρ * l.prod.guideRate))) (fun l => l.prod.guideRate = 0) n.leaves n'.leaves ws ws'
  | .well n p i self gci, s, ws, h, hp, hg => by
    simp only [Node.leaves] at hp hg ⊢
    obtain ⟨gci', s', ws', e, r, o⟩ := wellApplyProd_ok (J := J) hc hd h hp (target := ρ * (Node.well n p i self gci).prodGuide false) ρ
      (by simp [Node.prodGuide]) hg
    unfold Node.applyProd
    rw [if_neg (by simp), e, bind_ok]
    exact ⟨_, s', ws', rfl, r, o⟩
  | .group n p i cs, s, ws, h, hp, hg => by
    simp only [Node.leaves] at hp hg ⊢
    have hgs := prodGuides_false cs
    unfold Node.applyProd
    rw [if_pos (by simp)]
    by_cases h0 : prodGuides false cs = 0
    · rw [if_pos (by simpa using h0)]
      refine ⟨_, s, ws, rfl, h, ?_⟩
      simp only [Node.leaves]
      refine Outcome.refl hp ?_
      rw [hgs] at h0
      exact sum_zero (fun l hl => (hg l hl).1) h0
    · rw [if_neg (by simpa using h0)]
      obtain ⟨cs', s', ws', e, r, o⟩ := applyProdAll_ok (J := J) hc hd ρ cs h0 h hp hg
      simp only [Node.prodGuide, Bool.not_true]
      rw [e, bind_ok]
      exact ⟨_, s', ws', rfl, r, by simpa only [Node.leaves] using o⟩

theorem applyProdAll_ok {J : Junk} {pu : PhaseUsage} {m : ProdMode} {t : CtrlType} {d : List Rat} (hc : prodControl pu m = .ok (t, d))
    (hd : pu.num ≤ d.length) (ρ : Rat) : ∀ (cs : List Node) {my : Rat} (_ : my ≠ 0) {s : W} {ws : List Well}, WRep pu.num s ws → Placed ws (leavesAll cs) →
    ProdGuided ws (leavesAll cs) →
    ∃ cs' s' ws', applyProdAll J pu m cs (ρ * my) my false s = .ok (cs', s') ∧ WRep pu.num s' ws' ∧
      Outcome pu.num .producer (Share t (d.take pu.num) (fun l => -(ρ * l.prod.guideRate))) (fun l => l.prod.guideRate = 0) (leavesAll cs) (leavesAll cs') ws ws'
  | [], my, _, s, ws, h, hp, _ => by
    unfold applyProdAll
    exact ⟨_, s, ws, rfl, h, Outcome.refl hp (fun l hl => by simp [leavesAll] at hl)⟩
  | c :: cs, my, hmy, s, ws, h, hp, hg => by
    simp only [leavesAll] at hp hg ⊢
    unfold applyProdAll
    have e0 : ρ * my * c.prodGuide false / my = ρ * c.prodGuide false := by field_simp
    rw [e0]
    obtain ⟨c', s1, ws1, e1, r1, o1⟩ := applyProd_ok (J := J) hc hd ρ c h hp.left (fun l hl => hg l (List.mem_append_left _ hl))
    rw [e1, bind_ok]
    have hp1 : Placed ws1 (leavesAll cs) := hp.right.mono (fun l hl i hi =>
      o1.others i (fun l' hl' e => hp.disj hl' hl (by rw [hi, e])))
    have hg1 : ProdGuided ws1 (leavesAll cs) := ProdGuided.mono (fun l hl => hg l (List.mem_append_right _ hl)) o1.types
    obtain ⟨cs', s2, ws2, e2, r2, o2⟩ := applyProdAll_ok (J := J) hc hd ρ cs hmy r1 hp1 hg1
    simp only
    rw [e2, bind_ok]
    exact ⟨_, s2, ws2, rfl, r2, o1.append hp o2⟩
end

mutual
theorem applyInj_ok {J : Junk} {np : Nat} {m : InjMode} {t : CtrlType} {d : List Rat} (hc : injControl m = .ok (t, d)) (hd : np ≤ d.length)
    (ρ : Rat) : ∀ (n : Node) {s : W} {ws : List Well}, WRep np s ws → Placed ws n.leaves → InjGuided ws n.leaves →
    ∃ n' s' ws', n.applyInj J m (ρ * n.injGuide false) true s = .ok (n', s') ∧ WRep np s' ws' ∧
      Outcome np .injector (Share t (d.take np) (fun l => ρ * l.inj.guideRate)) (fun l => l.inj.guideRate = 0) n.leaves n'.leaves ws ws'
  | .well n p i self gci, s, ws, h, hp, hg => by
    simp only [Node.leaves] at hp hg ⊢
    obtain ⟨gci', s', ws', e, r, o⟩ := wellApplyInj_ok (J := J) hc hd h hp (target := ρ * (Node.well n p i self gci).injGuide false) ρ
      (by simp [Node.injGuide]) hg
    unfold Node.applyInj
    rw [if_neg (by simp), e, bind_ok]
    exact ⟨_, s', ws', rfl, r, o⟩
  | .group n p i cs, s, ws, h, hp, hg => by
    simp only [Node.leaves] at hp hg ⊢
    have hgs := injGuides_false cs
    unfold Node.applyInj
    rw [if_pos (by simp)]
    by_cases h0 : injGuides false cs = 0
    · rw [if_pos (by simpa using h0)]
      refine ⟨_, s, ws, rfl, h, ?_⟩
      simp only [Node.leaves]
      refine Outcome.refl hp ?_
      rw [hgs] at h0
      exact sum_zero (fun l hl => (hg l hl).1) h0
    · rw [if_neg (by simpa using h0)]
      obtain ⟨cs', s', ws', e, r, o⟩ := applyInjAll_ok (J := J) hc hd ρ cs h0 h hp hg
      simp only [Node.injGuide, Bool.not_true]
      rw [e, bind_ok]
      exact ⟨_, s', ws', rfl, r, by simpa only [Node.leaves] using o⟩

theorem applyInjAll_ok {J : Junk} {np : Nat} {m : InjMode} {t : CtrlType} {d : List Rat} (hc : injControl m = .ok (t, d))
    (hd : np ≤ d.length) (ρ : Rat) : ∀ (cs : List Node) {my : Rat} (_ : my ≠ 0) {s : W} {ws : List Well}, WRep np s ws → Placed ws (leavesAll cs) →
    InjGuided ws (leavesAll cs) →
    ∃ cs' s' ws', applyInjAll J m cs (ρ * my) my false s = .ok (cs', s') ∧ WRep np s' ws' ∧
      Outcome np .injector (Share t (d.take np) (fun l => ρ * l.inj.guideRate)) (fun l => l.inj.guideRate = 0) (leavesAll cs) (leavesAll cs') ws ws'
  | [], my, _, s, ws, h, hp, _ => by
    unfold applyInjAll
    exact ⟨_, s, ws, rfl, h, Outcome.refl hp (fun l hl => by simp [leavesAll] at hl)⟩
  | c :: cs, my, hmy, s, ws, h, hp, hg => by
    simp only [leavesAll] at hp hg ⊢
    unfold applyInjAll
    have e0 : ρ * my * c.injGuide false / my = ρ * c.injGuide false := by field_simp
    rw [e0]
    obtain ⟨c', s1, ws1, e1, r1, o1⟩ := applyInj_ok (J := J) hc hd ρ c h hp.left (fun l hl => hg l (List.mem_append_left _ hl))
    rw [e1, bind_ok]
    have hp1 : Placed ws1 (leavesAll cs) := hp.right.mono (fun l hl i hi =>
      o1.others i (fun l' hl' e => hp.disj hl' hl (by rw [hi, e])))
    have hg1 : InjGuided ws1 (leavesAll cs) := InjGuided.mono (fun l hl => hg l (List.mem_append_right _ hl)) o1.types
    obtain ⟨cs', s2, ws2, e2, r2, o2⟩ := applyInjAll_ok (J := J) hc hd ρ cs hmy r1 hp1 hg1
    simp only
    rw [e2, bind_ok]
    exact ⟨_, s2, ws2, rfl, r2, o1.append hp o2⟩
end

end Opm.Groups
