import Verif.Proofs.Wells
/-!
# Property theorems for the wells container (C22, C23)
-/

namespace Opm.Wells
open Opm

/-- **C22.**  Whatever the allocation hints, the contents of fresh memory and the history of calls (each meeting its documented
preconditions), every call succeeds without an access outside allocated storage, and what a client reads about each well is what
the plain list of wells says. -/
theorem wells_are_a_list (J : Junk) (np nwells nperf : Nat) (ops : List Op) (hp : PreAll np [] ops) :
    ∃ s0 s, createWells J np nwells nperf = .ok s0 ∧ run J ops s0 = .ok s ∧ s.np = np ∧ s.nw = (ops.foldl (specStep np) []).length ∧
      ∀ (i : Nat) w, (ops.foldl (specStep np) [])[i]? = some w → getWell s i = .ok w.obs := by
  obtain ⟨s0, e0, r0⟩ := wrep_create J np nwells nperf
  obtain ⟨s, e, r⟩ := r0.run J ops hp
  exact ⟨s0, s, e0, e, r.hnp, r.nw, fun i w hw => r.get i w hw⟩

/-- Histories without `clear_well_controls`. -/
def NoClear (ops : List Op) : Prop := ∀ op ∈ ops, ∀ w, op ≠ .clearControls w

/-- One step preserves a property of wells that new wells have and the operations preserve. -/
theorem specStep_all {np : Nat} {ws : List Well} {op : Op} (P : Well → Prop) (h : ∀ w ∈ ws, P w) (hp : Pre np ws op)
    (hnew : ∀ t d c cs wi n, P { type := t, depth := d, comp := c, cells := cs, wi := wi, name := n, controls := [], slots := [], current := -1 })
    (hadd : ∀ w t g d, P w → P (w.addControl np t g d))
    (hcur : ∀ (w : Well) (c : Int), P w → c < w.controls.length → P { w with current := c })
    (hno : ∀ w, op ≠ .clearControls w) : ∀ w ∈ specStep np ws op, P w := by
  have hmod : ∀ (i : Nat) (f : Well → Well), (∀ x, ws[i]? = some x → P x → P (f x)) → ∀ w ∈ ws.modify i f, P w := by
    intro i f hf w hw
    obtain ⟨k, hk⟩ := List.mem_iff_getElem?.1 hw
    rw [List.getElem?_modify, Option.map_eq_map, Option.map_eq_some_iff] at hk
    obtain ⟨y, hy, rfl⟩ := hk
    split
    · rename_i hik
      exact hf y (by rw [hik]; exact hy) (h y (List.mem_of_getElem? hy))
    · exact h y (List.mem_of_getElem? hy)
  cases op with
  | addWell t d c cs wi n =>
    intro w hw
    rcases List.mem_append.1 hw with hw | hw
    · exact h w hw
    · rw [List.mem_singleton] at hw
      rw [hw]; exact hnew ..
  | appendControls t g d w => exact hmod _ _ (fun x _ hx => hadd x t g d hx)
  | setCurrent w cur =>
    obtain ⟨_, x, hx, hc⟩ := hp
    refine hmod _ _ (fun y hy hP => hcur y cur hP ?_)
    rw [hx] at hy
    cases hy
    exact hc
  | clearControls w => exact absurd rfl (hno w)

theorem spec_all {np : Nat} (P : Well → Prop)
    (hnew : ∀ t d c cs wi n, P { type := t, depth := d, comp := c, cells := cs, wi := wi, name := n, controls := [], slots := [], current := -1 })
    (hadd : ∀ w t g d, P w → P (w.addControl np t g d))
    (hcur : ∀ (w : Well) (c : Int), P w → c < w.controls.length → P { w with current := c })
    (ops : List Op) (ws : List Well) (h : ∀ w ∈ ws, P w) (hp : PreAll np ws ops) (hno : NoClear ops) : ∀ w ∈ ops.foldl (specStep np) ws, P w := by
  induction ops generalizing ws with
  | nil => exact h
  | cons op ops ih =>
    exact ih _ (specStep_all P h hp.1 hnew hadd hcur (hno op List.mem_cons_self)) hp.2 (fun o ho => hno o (List.mem_cons_of_mem _ ho))

/-- **C22.**  Without `clear_well_controls` a well has exactly one stored phase distribution per control: the one given when the
control was appended, or zeros. -/
theorem one_distribution_per_control {np : Nat} (ops : List Op) (hp : PreAll np [] ops) (hno : NoClear ops) :
    ∀ w ∈ ops.foldl (specStep np) [], w.slots.length = w.controls.length := by
  apply spec_all (fun w => w.slots.length = w.controls.length) _ _ _ ops [] (by simp) hp hno
  · intros; rfl
  · intro w t g d hw
    unfold Well.addControl
    simp only
    rw [if_neg (by omega)]
    simp [hw]
  · intro w c hw _; exact hw

/-- **C23.**  A clone exists and is observably equal to the original exactly when the current control of every well is one of its
controls (or unset); otherwise the call stops at an assertion.  Missing for the full claim: reachable wells can violate the
condition, see `clone_rejects_reachable_wells`. -/
theorem clone_equals_original_partial (J J' : Junk) (np nwells nperf : Nat) (ops : List Op) (hp : PreAll np [] ops) :
    ∃ s0 s, createWells J np nwells nperf = .ok s0 ∧ run J ops s0 = .ok s ∧
      ((∀ w ∈ ops.foldl (specStep np) [], w.current < w.controls.length) →
        ∃ t, cloneWells J' s = .ok t ∧ t.np = s.np ∧ t.nw = s.nw ∧ ∀ (i : Nat), i < s.nw → ∃ o, getWell s i = .ok o ∧ getWell t i = .ok o) ∧
      ((∃ w ∈ ops.foldl (specStep np) [], (w.controls.length : Int) ≤ w.current) → cloneWells J' s = .error .assertFail) := by
  obtain ⟨s0, e0, r0⟩ := wrep_create J np nwells nperf
  obtain ⟨s, e, r⟩ := r0.run J ops hp
  obtain ⟨c1, c2⟩ := r.clone J'
  refine ⟨s0, s, e0, e, ?_, c2⟩
  intro hall
  obtain ⟨t, et, rt⟩ := c1 hall
  refine ⟨t, et, by rw [rt.hnp, r.hnp], by rw [rt.nw, r.nw, List.length_map], ?_⟩
  intro i hi
  rw [r.nw] at hi
  have hw : (ops.foldl (specStep np) [])[i]? = some (ops.foldl (specStep np) [])[i] := List.getElem?_eq_getElem hi
  refine ⟨_, r.get i _ hw, ?_⟩
  rw [← Well.obs_trunc]
  exact rt.get i _ (by rw [List.getElem?_map, hw]; rfl)

/-- **C23.**  For histories without `clear_well_controls` the clone always exists and is observably equal to the original. -/
theorem clone_equals_original_without_clear (J J' : Junk) (np nwells nperf : Nat) (ops : List Op) (hp : PreAll np [] ops) (hno : NoClear ops) :
    ∃ s0 s t, createWells J np nwells nperf = .ok s0 ∧ run J ops s0 = .ok s ∧ cloneWells J' s = .ok t ∧ t.np = s.np ∧ t.nw = s.nw ∧
      ∀ (i : Nat), i < s.nw → ∃ o, getWell s i = .ok o ∧ getWell t i = .ok o := by
  have hall : ∀ w ∈ ops.foldl (specStep np) [], w.current < w.controls.length := by
    apply spec_all (fun w => w.current < w.controls.length) _ _ _ ops [] (by simp) hp hno
    · intros; simp
    · intro w t g d hw
      unfold Well.addControl
      simp only [List.length_append, List.length_singleton]
      push_cast
      omega
    · intro w c _ hc; exact hc
  obtain ⟨s0, s, e0, e, h1, _⟩ := clone_equals_original_partial J J' np nwells nperf ops hp
  obtain ⟨t, et, a, b, c⟩ := h1 hall
  exact ⟨s0, s, t, e0, e, et, a, b, c⟩

/-! ### Concrete cases -/

/-- A two-phase history with growth, two wells, optional arguments and controls. -/
def demo : List Op :=
  [.addWell .injector 10 (some [1, 0]) [3, 4] (some [2, 5]) (some "INJ"),
   .addWell .producer 20 none [7] none none,
   .appendControls .bhp 100 none 1,
   .appendControls .surfaceRate 5 (some [1, 0]) 0,
   .appendControls .reservoirRate 6 (some [0, 1]) 0,
   .setCurrent 0 1, .setCurrent 1 0]

instance (np : Nat) (ws : List Well) (op : Op) : Decidable (Pre np ws op) := by
  cases op with
  | addWell t d c cs wi n =>
    exact decidable_of_iff (c.all (fun l => l.length == np) ∧ wi.all (fun l => l.length == cs.length)) (by
      cases c <;> cases wi <;> simp [Pre])
  | appendControls t g d w =>
    exact decidable_of_iff (0 ≤ w ∧ w < ws.length ∧ d.all (fun l => l.length == np)) (by cases d <;> simp [Pre])
  | setCurrent w cur =>
    exact decidable_of_iff (0 ≤ w ∧ ws[w.toNat]?.any (fun x => decide (cur < x.controls.length))) (by
      simp only [Pre]
      cases ws[w.toNat]? <;> simp)
  | clearControls w => exact decidable_of_iff (0 ≤ w ∧ w < ws.length) Iff.rfl

instance decPreAll (np : Nat) : ∀ (ops : List Op) (ws : List Well), Decidable (PreAll np ws ops)
  | [], _ => isTrue trivial
  | _ :: ops, ws => by
    have := decPreAll np ops
    exact instDecidableAnd

def J0 : Junk :=
  { wt := fun _ => .injector, ct := fun _ => .surfaceRate, dbl := fun k => k + 17, nat := fun k => k + 5, int := fun k => k, ctrl := fun _ => controlsCreate,
    str := fun _ => some "?" }

example : PreAll 2 [] demo := by decide +kernel
example : NoClear demo := by
  intro op ho w
  simp only [demo, List.mem_cons, List.not_mem_nil, or_false] at ho
  rcases ho with rfl | rfl | rfl | rfl | rfl | rfl | rfl <;> simp
example : ((createWells J0 2 0 0 >>= run J0 demo) >>= fun s => getWell s 0) =
    .ok { type := .injector, depth := 10, comp := [1, 0], cells := [3, 4], wi := [2, 5], name := some "INJ",
          controls := [(.surfaceRate, 5, [1, 0]), (.reservoirRate, 6, [0, 1])], current := 1 } := by decide +kernel
example : ((createWells J0 2 0 0 >>= run J0 demo >>= cloneWells J0) >>= fun s => getWell s 1) =
    .ok { type := .producer, depth := 20, comp := [0, 0], cells := [7], wi := [0], name := none,
          controls := [(.bhp, 100, [0, 0])], current := 0 } := by decide +kernel

/-- A well whose controls are cleared while one of them is current. -/
def cleared : List Op :=
  [.addWell .producer 0 none [0] none none, .appendControls .surfaceRate 5 (some [1, 0]) 0, .setCurrent 0 0, .clearControls 0]

/-- **C23, negative part.**  `clear_well_controls` does not reset the current control, so a well whose controls are cleared can be
built through the API but not cloned. -/
theorem clone_rejects_reachable_wells :
    PreAll 2 [] cleared ∧ ∀ J J' nwells nperf, ∃ s0 s, createWells J 2 nwells nperf = .ok s0 ∧ run J cleared s0 = .ok s ∧
      cloneWells J' s = .error .assertFail := by
  have hp : PreAll 2 [] cleared := by decide +kernel
  refine ⟨hp, ?_⟩
  intro J J' nwells nperf
  obtain ⟨s0, s, e0, e, _, h2⟩ := clone_equals_original_partial J J' 2 nwells nperf cleared hp
  exact ⟨s0, s, e0, e, h2 (by
    refine ⟨_, by simp only [cleared, List.foldl_cons, List.foldl_nil, specStep]; exact List.mem_singleton_self _, ?_⟩
    simp)⟩

/-- Appending a control without distribution after `clear_well_controls` reuses the distribution of the old control at that
position instead of the default. -/
theorem stale_distribution_after_clear (J : Junk) (nwells nperf : Nat) :
    ∃ s0 s, createWells J 2 nwells nperf = .ok s0 ∧ run J (cleared ++ [.appendControls .bhp 9 none 0]) s0 = .ok s ∧
      ∃ o, getWell s 0 = .ok o ∧ o.controls = [(.bhp, 9, [1, 0])] := by
  have hp : PreAll 2 [] (cleared ++ [.appendControls .bhp 9 none 0]) := by decide +kernel
  obtain ⟨s0, s, e0, e, _, _, h⟩ := wells_are_a_list J 2 nwells nperf _ hp
  refine ⟨s0, s, e0, e, _, h 0 _ rfl, rfl⟩

end Opm.Wells
