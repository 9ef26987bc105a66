import Verif.Props.Reorder
import Verif.Spec.Tof
/-!
# Solving cell by cell in upstream order
-/

namespace Opm.Reorder
open Opm Relation

/-- Without circulation the solver is called for one cell after the other, in an order in which fluid comes from cells solved before. -/
theorem single_calls {g : GridTopo} {flux : List Rat} (hg : g.Valid) (hfl : flux.length = g.nf) (hnc : 0 < g.nc) (ha : NoCirculation g flux) (sequence components : List Nat)
    {fuel : Nat} (hfuel : 2 * g.nc + 2 * g.nf + 2 ≤ fuel) :
    ∃ L : List Nat, reorderAndTransport fuel g flux sequence components = .ok (L.map Call.single) ∧ L.Perm (List.range g.nc) ∧
      ∀ (i : Nat) d, L[i]? = some d → ∀ u, g.FlowsTo flux u d → ∃ j < i, L[j]? = some u := by
  obtain ⟨calls, e, hp, ho, hc, hm⟩ := Props.reorderAndTransport_order hg hfl hnc sequence components hfuel
  have one : ∀ c ∈ calls, ∃ d, c = .single d := by
    intro c hcm
    cases c with
    | single d => exact ⟨d, rfl⟩
    | multi cs =>
      exfalso
      have hlen := hm cs hcm
      have hnd : cs.Nodup := by
        have h1 : (calls.flatMap Props.cells).Nodup := hp.nodup_iff.2 List.nodup_range
        rw [List.nodup_flatMap] at h1
        exact h1.1 _ hcm
      match cs, hlen, hnd, hcm with
      | a :: b :: l, _, hnd, hcm =>
        have hab : a ≠ b := by
          simp at hnd
          exact fun h => hnd.1.1 h
        have := (hc _ hcm a (by simp [Props.cells]) b).1 (by simp [Props.cells])
        rcases this.1.cases_head with h | ⟨x, h1, h2⟩
        · exact hab h
        · exact ha a ((TransGen.head' h1 h2).trans_left this.2)
  have hL : ∃ L : List Nat, calls = L.map Call.single := by
    clear hp ho hc hm e
    induction calls with
    | nil => exact ⟨[], rfl⟩
    | cons c cs ih =>
      obtain ⟨d, rfl⟩ := one c (by simp)
      obtain ⟨L, rfl⟩ := ih (fun c h => one c (by simp [h]))
      exact ⟨d :: L, rfl⟩
  obtain ⟨L, rfl⟩ := hL
  have e2 : (L.map Call.single).flatMap Props.cells = L := by
    clear hp ho hc hm e one
    induction L with
    | nil => rfl
    | cons d L ih => simp only [List.map_cons, List.flatMap_cons, ih]; rfl
  rw [e2] at hp
  refine ⟨L, e, hp, fun i d hd u hu => ?_⟩
  obtain ⟨j, c', hj, hc', hu'⟩ := ho i (.single d) (by simp [hd]) d (by simp [Props.cells]) u hu
  rw [List.getElem?_map] at hc'
  obtain ⟨v, hv, rfl⟩ := Option.map_eq_some_iff.1 hc'
  simp only [Props.cells, List.mem_singleton] at hu'
  subst hu'
  refine ⟨j, lt_of_le_of_ne hj ?_, hv⟩
  rintro rfl
  rw [hv] at hd
  cases hd
  exact ha _ (TransGen.single hu)

/-- A sweep: each step changes the value of its own cell only, using its old value and those of the cells upstream.  At the end every cell has the value given by
its first value and the final values upstream. -/
theorem sweep {σ V : Type} {n : Nat} (get : σ → Nat → V) (step : σ → Nat → M σ) (G : Nat → V → (Nat → V) → V) (Inv : σ → Prop) (Up : Nat → Nat → Prop)
    (hstep : ∀ d s, d < n → Inv s → ∃ s', step s d = .ok s' ∧ Inv s' ∧ ∀ c, get s' c = if c = d then G d (get s d) (get s) else get s c)
    (hdep : ∀ d v f g, (∀ u, Up u d → f u = g u) → G d v f = G d v g) {L : List Nat} (hn : L.Nodup) (hlt : ∀ d ∈ L, d < n)
    (ho : ∀ (i : Nat) d, L[i]? = some d → ∀ u, Up u d → ∃ j < i, L[j]? = some u) {s : σ} (hs : Inv s) :
    ∃ s', L.foldlM step s = .ok s' ∧ Inv s' ∧ (∀ d ∈ L, get s' d = G d (get s d) (get s')) ∧ ∀ d, d ∉ L → get s' d = get s d := by
  suffices h : ∀ k, k ≤ L.length → ∃ s', (L.take k).foldlM step s = .ok s' ∧ Inv s' ∧ (∀ d ∈ L.take k, get s' d = G d (get s d) (get s')) ∧ ∀ d, d ∉ L.take k → get s' d = get s d by
    simpa using h L.length (le_refl _)
  intro k
  induction k with
  | zero => exact fun _ => ⟨s, rfl, hs, by simp, by simp⟩
  | succ k ih =>
    intro hk
    obtain ⟨t, e, hi, h1, h2⟩ := ih (by omega)
    have hget := List.getElem?_eq_getElem (show k < L.length by omega)
    have ht : L.take (k + 1) = L.take k ++ [L[k]] := by rw [List.take_add_one, hget]; rfl
    have hnot : L[k] ∉ L.take k := by
      have : (L.take (k + 1)).Nodup := hn.sublist (List.take_sublist _ _)
      rw [ht, List.nodup_append] at this
      intro h
      exact this.2.2 _ h _ (by simp) rfl
    obtain ⟨t', e', hi', h3⟩ := hstep L[k] t (hlt _ (List.getElem_mem _)) hi
    have hup : ∀ (i : Nat) d, i ≤ k → L[i]? = some d → ∀ u, Up u d → u ∈ L.take k := by
      intro i d hik hd u hu
      obtain ⟨j, hj, hju⟩ := ho i d hd u hu
      exact List.mem_of_getElem? (i := j) (by rw [List.getElem?_take, if_pos (by omega)]; exact hju)
    refine ⟨t', ?_, hi', ?_, ?_⟩
    · rw [ht, List.foldlM_append, e]
      simp [bind_ok, e']
    · intro d hd
      have hagree : ∀ u, u ∈ L.take k → get t' u = get t u := fun u hu => by
        rw [h3 u, if_neg (fun h : u = L[k] => hnot (h ▸ hu))]
      rw [ht, List.mem_append] at hd
      rcases hd with hd | hd
      · rw [hagree d hd, h1 d hd]
        obtain ⟨i, hi⟩ := List.mem_iff_getElem?.1 hd
        rw [List.getElem?_take] at hi
        split at hi
        · rename_i hik
          exact hdep _ _ _ _ (fun u hu => (hagree u (hup i d (by omega) hi u hu)).symm)
        · cases hi
      · rw [List.mem_singleton] at hd
        subst hd
        rw [h3, if_pos rfl, h2 _ hnot]
        exact hdep _ _ _ _ (fun u hu => (hagree u (hup k _ (le_refl _) hget u hu)).symm)
    · intro d hd
      rw [ht] at hd
      simp only [List.mem_append, List.mem_singleton, not_or] at hd
      rw [h3, if_neg hd.2, h2 d hd.1]

/-- A number for each cell that grows along the flow. -/
theorem exists_rank {L : List Nat} (hn : L.Nodup) {Up : Nat → Nat → Prop} (ho : ∀ (i : Nat) d, L[i]? = some d → ∀ u, Up u d → ∃ j < i, L[j]? = some u) :
    ∃ rank : Nat → Nat, ∀ u d, d ∈ L → Up u d → rank u < rank d := by
  refine ⟨fun d => L.idxOf d, fun u d hd hu => ?_⟩
  obtain ⟨j, hj, hju⟩ := ho (L.idxOf d) d (List.getElem?_idxOf hd) u hu
  have : L.idxOf u = j := by
    obtain ⟨h1, rfl⟩ := List.getElem?_eq_some_iff.1 hju
    exact hn.idxOf_getElem j h1
  simp only [this]
  exact hj

end Opm.Reorder
