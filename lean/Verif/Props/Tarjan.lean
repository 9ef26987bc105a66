import Verif.Proofs.Tarjan
/-!
# C01, C02: `tarjan` (opm/core/transport/reorder/tarjan.c)

For every CSR digraph and every previous content of the output and work buffers.
-/

namespace Opm.Tarjan.Props

open Opm.Graph Opm.Tarjan

/-- **C01.** `tarjan` never touches memory outside its buffers, trips no assertion, stops after a
number of loop steps linear in the graph, and leaves in `vert` a permutation of the vertices cut
into `ncomp` nonempty consecutive blocks by `comp`. -/
theorem tarjan_safe_permutation {nv : Nat} {ia ja vert comp work : List Nat} (wf : WF nv ia ja)
    (hv : vert.length = nv) (hc : comp.length = nv + 1) (hw : 3 * nv ≤ work.length) {fuel : Nat}
    (hfuel : 2 * nv + 2 * ja.length + 2 ≤ fuel) :
    ∃ r, tarjan fuel nv ia ja vert comp work = .ok r ∧
      r.vert.Perm (List.range nv) ∧
      r.ncomp ≤ nv ∧ r.comp[0]? = some 0 ∧ r.comp[r.ncomp]? = some nv ∧
      ∀ i < r.ncomp, ∃ a b, r.comp[i]? = some a ∧ r.comp[i + 1]? = some b ∧ a < b := by
  obtain ⟨cs, tail, e, hp, hne, _, _⟩ := tarjan_main wf hv hc hw hfuel
  have hlen : cs.flatten.length = nv := by simpa using hp.length_eq
  refine ⟨_, e, hp, ?_, ?_, ?_, ?_⟩
  · have := length_comps_le cs hne
    simp only; omega
  · rw [boundaries_app_get _ _ _ (Nat.zero_le _)]; simp
  · simp only
    rw [boundaries_app_get _ _ _ (Nat.le_refl _), List.take_length, hlen]
  · intro i hi
    simp only at hi ⊢
    refine ⟨_, _, boundaries_app_get _ _ _ (by omega), boundaries_app_get _ _ _ hi, ?_⟩
    have h1 : (cs.take (i + 1)).flatten = (cs.take i).flatten ++ cs[i] := by
      rw [List.take_add_one, List.getElem?_eq_getElem hi, List.flatten_append]; simp
    rw [h1, List.length_append]
    have := List.length_pos_of_ne_nil (hne cs[i] (List.getElem_mem _))
    omega

/-- **C02.** The blocks are exactly the strong components of the graph, in an order such that
every edge leads to the same block or to an earlier one. -/
theorem tarjan_strong_components {nv : Nat} {ia ja vert comp work : List Nat} (wf : WF nv ia ja)
    (hv : vert.length = nv) (hc : comp.length = nv + 1) (hw : 3 * nv ≤ work.length) {fuel : Nat}
    (hfuel : 2 * nv + 2 * ja.length + 2 ≤ fuel) :
    ∃ r, tarjan fuel nv ia ja vert comp work = .ok r ∧
      (∀ v < nv, ∃ i < r.ncomp, v ∈ block r.vert r.comp i) ∧
      (∀ i < r.ncomp, ∀ u ∈ block r.vert r.comp i, ∀ v,
        v ∈ block r.vert r.comp i ↔ Reach ia ja u v ∧ Reach ia ja v u) ∧
      (∀ i < r.ncomp, ∀ u ∈ block r.vert r.comp i, ∀ w, Edge ia ja u w →
        ∃ j ≤ i, w ∈ block r.vert r.comp j) := by
  obtain ⟨cs, tail, e, hp, hne, hscc, htopo⟩ := tarjan_main wf hv hc hw hfuel
  refine ⟨_, e, ?_, ?_, ?_⟩
  · intro v hv
    have : v ∈ cs.flatten := hp.mem_iff.2 (List.mem_range.2 hv)
    obtain ⟨C, hC, hvC⟩ := List.mem_flatten.1 this
    obtain ⟨i, hi⟩ := List.mem_iff_getElem?.1 hC
    exact ⟨i, (List.getElem?_eq_some_iff.1 hi).1, by rw [block_eq cs tail hi]; exact hvC⟩
  · intro i hi
    simp only at hi ⊢
    rw [block_eq cs tail (List.getElem?_eq_getElem hi)]
    exact hscc _ (List.getElem_mem _)
  · intro i hi
    simp only at hi ⊢
    have hg := List.getElem?_eq_getElem hi
    rw [block_eq cs tail hg]
    intro u hu w hw
    obtain ⟨j, D, hj, hD, hwD⟩ := htopo i _ hg u hu w hw
    exact ⟨j, hj, by rw [block_eq cs tail hD]; exact hwD⟩

/-- **C02**, consequence used by the reordered transport solvers: if the graph has no cycle, every
block is a single vertex and every edge leads to a vertex that comes strictly earlier in `vert`. -/
theorem tarjan_acyclic_order {nv : Nat} {ia ja vert comp work : List Nat} (wf : WF nv ia ja)
    (hv : vert.length = nv) (hc : comp.length = nv + 1) (hw : 3 * nv ≤ work.length) {fuel : Nat}
    (hfuel : 2 * nv + 2 * ja.length + 2 ≤ fuel)
    (hacyc : ∀ u v, Reach ia ja u v → Reach ia ja v u → u = v) (hloop : ∀ u, ¬ Edge ia ja u u) :
    ∃ r, tarjan fuel nv ia ja vert comp work = .ok r ∧ r.ncomp = nv ∧
      ∀ (i u w : Nat), r.vert[i]? = some u → Edge ia ja u w → ∃ j < i, r.vert[j]? = some w := by
  obtain ⟨cs, tail, e, hp, hne, hscc, htopo⟩ := tarjan_main wf hv hc hw hfuel
  have hlen : cs.flatten.length = nv := by simpa using hp.length_eq
  have hnd : cs.flatten.Nodup := hp.nodup_iff.2 List.nodup_range
  have hsing : ∀ C ∈ cs, ∃ x, C = [x] := by
    intro C hC
    have hCnd : C.Nodup := (List.nodup_flatten.1 hnd).1 C hC
    cases C with
    | nil => exact absurd rfl (hne _ hC)
    | cons x l =>
      cases l with
      | nil => exact ⟨x, rfl⟩
      | cons y l =>
        have := (hscc _ hC x (by simp) y).1 (by simp)
        have hxy := hacyc x y this.1 this.2
        subst hxy
        simp at hCnd
  have hflat : ∀ (l : List (List Nat)), (∀ C ∈ l, ∃ x, C = [x]) →
      l.flatten.length = l.length ∧ ∀ (i : Nat) x, l.flatten[i]? = some x ↔ l[i]? = some [x] := by
    intro l
    induction l with
    | nil => intro _; simp
    | cons C l ih =>
      intro h
      obtain ⟨x, rfl⟩ := h C (by simp)
      obtain ⟨h1, h2⟩ := ih (fun D hD => h D (by simp [hD]))
      refine ⟨by simp [h1], ?_⟩
      intro i y
      cases i with
      | zero => simp
      | succ i => simpa using h2 i y
  obtain ⟨hl, hget⟩ := hflat cs hsing
  refine ⟨_, e, by simp only; omega, ?_⟩
  intro i u w hu hw
  simp only at hu ⊢
  have hu' := (hget i u).1 hu
  obtain ⟨j, D, hj, hD, hwD⟩ := htopo i _ hu' u (by simp) w hw
  obtain ⟨x, rfl⟩ := hsing D (List.mem_iff_getElem?.2 ⟨j, hD⟩)
  simp at hwD
  subst hwD
  refine ⟨j, ?_, (hget j w).2 hD⟩
  rcases Nat.lt_or_ge j i with h | h
  · exact h
  · obtain rfl : j = i := by omega
    rw [hu'] at hD
    cases hD
    exact absurd hw (hloop u)

/-- Non-vacuity: a graph with a 3-cycle, a self-loop and an isolated vertex satisfies the
hypotheses; the model returns its three components. -/
example : WF 5 [0, 1, 2, 4, 5, 5] [1, 2, 0, 3, 3] := by
  constructor
  · rfl
  · intro i a b ha hb
    match i with
    | 0 | 1 | 2 | 3 | 4 => simp at ha hb; omega
    | _ + 5 => simp at hb
  · intro a ha; simp at ha; simp; omega
  · intro a e w ha _ hw
    have := List.mem_of_getElem? hw
    simp at this; omega

example : tarjan 30 5 [0, 1, 2, 4, 5, 5] [1, 2, 0, 3, 3] (List.replicate 5 7) (List.replicate 6 7)
    (List.replicate 15 7) = .ok { vert := [3, 2, 1, 0, 4], comp := [0, 1, 4, 5, 1, 4], ncomp := 3 } := by
  decide +kernel

end Opm.Tarjan.Props
