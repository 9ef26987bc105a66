import Verif.Proofs.Wachspress
/-!
# Generalised barycentric coordinates

Properties of `WachspressCoord`.
-/

namespace Opm.Wachspress
open Opm

variable {g : Grid} {m : Mesh}

theorem step_of_foldlM {α β : Type} {f : β → α → M β} : ∀ {l : List α} {s t : β}, l.foldlM f s = .ok t → ∀ a ∈ l, ∃ s' t', f s' a = .ok t'
  | [], _, _, _, _, h => by simp at h
  | b :: l, s, t, e, a, h => by
    rw [List.foldlM_cons] at e
    obtain ⟨s1, e1, e2⟩ := bind_eq_ok.1 e
    rcases List.mem_cons.1 h with rfl | h
    · exact ⟨s, s1, e1⟩
    · exact step_of_foldlM e2 a h

/-- An object can be made for a grid exactly if as many faces as there are dimensions meet in each vertex of each cell. -/
theorem construct_iff (h : GridOk g m) : (∃ S, construct g = .ok S) ↔ Simple g m := by
  constructor
  · rintro ⟨S, e⟩
    unfold construct at e
    rw [if_neg (by rcases h.dim with h | h <;> omega)] at e
    obtain ⟨T, e1, _⟩ := bind_eq_ok.1 e
    intro c v hc hv
    have key : ∀ n T, n ≤ g.nc → loop n (cell g) { count := 0, corners := [], adj := [], nonadj := [] } = .ok T → c < n → (m.at c v).length = g.dim := by
      intro n
      induction n with
      | zero => intro T _ _ h; omega
      | succ n ih =>
        intro T hn e hcn
        rw [loop_succ] at e
        obtain ⟨T', e1, e2⟩ := bind_eq_ok.1 e
        rcases Nat.lt_or_ge c n with hlt | hge
        · exact ih T' (by omega) e1 hlt
        · have : n = c := by omega
          subst this
          unfold cell at e2
          rw [Geometry.entries_ok (h.cell n hc), bind_ok, incidences_ok (fun f hf => h.face n f hc hf), bind_ok] at e2
          obtain ⟨T2, e3, _⟩ := bind_eq_ok.1 e2
          obtain ⟨s', t', e4⟩ := step_of_foldlM e3 v (mem_verts.2 hv)
          unfold corner at e4
          rw [adjacent_pairs (fun f hf => h.onceN n f hc hf) v] at e4
          split at e4
          · cases e4
          · obtain ⟨_, e5, _⟩ := bind_eq_ok.1 e4
            simpa [Mesh.at] using check_eq_ok.1 e5
    exact key g.nc T le_rfl e1 hc
  · intro hs
    unfold construct
    rw [if_neg (by rcases h.dim with h | h <;> omega)]
    obtain ⟨S, e, hS⟩ := loop_inv (n := g.nc) (f := cell g) (s := { count := 0, corners := [], adj := [], nonadj := [] }) (P := fun c S => Upto g m c S)
      { cells := rfl, count := rfl, nonLen := rfl, adjLen := by simp, vertex := by simp, id := by simp, at' := by simp, off := by simp, volume := by simp, lt := by simp }
      (fun c S hc hS => cell_ok h hc (fun v hv => hs c v hc hv) hS)
    exact ⟨S, by rw [e, bind_ok, check_ok (by simp [hS.count]), bind_ok]⟩

/-- The tables of the object describe the corners of all cells. -/
theorem construct_made (h : GridOk g m) {S : Static} (e : construct g = .ok S) : Made g m S := by
  have hs := (construct_iff h).1 ⟨S, e⟩
  unfold construct at e
  rw [if_neg (by rcases h.dim with h | h <;> omega)] at e
  obtain ⟨T, e1, hT⟩ := loop_inv (n := g.nc) (f := cell g) (s := { count := 0, corners := [], adj := [], nonadj := [] }) (P := fun c S => Upto g m c S)
    { cells := rfl, count := rfl, nonLen := rfl, adjLen := by simp, vertex := by simp, id := by simp, at' := by simp, off := by simp, volume := by simp, lt := by simp }
    (fun c S hc hS => cell_ok h hc (fun v hv => hs c v hc hv) hS)
  rw [e1, bind_ok, check_ok (by simp [hT.count]), bind_ok] at e
  cases e
  exact hT.made h

/-- The number of corners is that of the vertices of the cell. -/
theorem numCorners_eq {S : Static} (hS : Made g m S) {c : Nat} (hc : c < g.nc) :
    ∃ row, S.corners[c]? = some row ∧ numCorners S c = .ok row.length ∧ (row.map (·.vertex)).Nodup ∧ ∀ v, v ∈ row.map (·.vertex) ↔ m.Vertex c v := by
  have hl : c < S.corners.length := by rw [hS.cells]; exact hc
  refine ⟨S.corners[c], List.getElem?_eq_getElem hl, ?_, (hS.increasing c _ (List.getElem?_eq_getElem hl)).imp (fun h => by omega), hS.vertex c _ (List.getElem?_eq_getElem hl)⟩
  unfold numCorners
  rw [rd_ok hl, bind_ok]

theorem volume_pos (h : GridOk g m) (hs : Simple g m) {S : Static} (hS : Made g m S) (hi : Independent g m) {c : Nat} (hc : c < g.nc) {row : List Corner} (hr : S.corners[c]? = some row) {k : Corner} (hk : k ∈ row) :
    0 < k.volume := by
  have hv := (hS.vertex c row hr _).1 (List.mem_map_of_mem hk)
  rw [hS.volume c row k hr hk, ← vol_span _ h.dim]
  refine lt_of_le_of_ne (vol_nonneg _) (fun e => ?_)
  obtain ⟨u, ⟨d, hd, hu⟩, hz⟩ := (vol_zero h.dim (hs c _ hc hv)).1 e.symm
  exact hu (hi c k.vertex hc hv u hz d hd)

theorem W_nonneg {S : Static} (hS : Made g m S) {c : Nat} {row : List Corner} (hr : S.corners[c]? = some row) {k : Corner} (hk : k ∈ row) {x : Nat → Rat}
    (hx : ∀ f ∈ m.faces c, 0 ≤ dist g c f x) : 0 ≤ W g m c x k := by
  refine mul_nonneg (by rw [hS.volume c row k hr hk]; exact abs_nonneg _) (List.prod_nonneg ?_)
  intro q hq
  obtain ⟨f, hf, rfl⟩ := List.mem_map.1 hq
  exact hx f (List.mem_filter.1 hf).1

theorem W_zero {c : Nat} {k : Corner} {x : Nat → Rat} {f : Nat} (hf : f ∈ m.faces c) (h0 : dist g c f x = 0) (hk : k.vertex ∉ m.nodes f) : W g m c x k = 0 := by
  unfold W
  rw [mul_eq_zero]
  right
  rw [List.prod_eq_zero_iff]
  exact List.mem_map.2 ⟨f, List.mem_filter.2 ⟨hf, by simpa using hk⟩, h0⟩

theorem total_pos (h : GridOk g m) (hs : Simple g m) {S : Static} (hS : Made g m S) (hi : Independent g m) {c : Nat} (hc : c < g.nc) {row : List Corner} (hr : S.corners[c]? = some row) {x : Nat → Rat}
    (hx : Within g m c x) : 0 < total g m c x row := by
  obtain ⟨h1, v, hv, h2⟩ := hx
  obtain ⟨k, hk, rfl⟩ := List.mem_map.1 ((hS.vertex c row hr v).2 hv)
  obtain ⟨i, hik⟩ := List.getElem?_of_mem hk
  have hlt := (List.getElem?_eq_some_iff.1 hik).1
  refine Finset.sum_pos' (fun j hj => W_nonneg hS hr (getD_mem (Finset.mem_range.1 hj)).2 h1) ⟨i, Finset.mem_range.2 hlt, ?_⟩
  rw [show row.getD i ⟨0, 0, 0⟩ = k by rw [List.getD_eq_getElem?_getD, hik]; rfl]
  refine mul_pos (volume_pos h hs hS hi hc hr hk) (List.prod_pos ?_)
  intro q hq
  obtain ⟨f, hf, rfl⟩ := List.mem_map.1 hq
  obtain ⟨hf1, hf2⟩ := List.mem_filter.1 hf
  refine lt_of_le_of_ne (h1 f hf1) (fun e => ?_)
  exact (by simpa using hf2 : k.vertex ∉ m.nodes f) (h2 f hf1 e.symm)

/-- Points in a cell have barycentric coordinates: `cartToBary` finds numbers that are not negative, have sum one, and vanish for vertices that are not on a face the point is on.  Entries after the last corner are not changed. -/
theorem cartToBary_bary (h : GridOk g m) (hs : Simple g m) (hi : Independent g m) {S : Static} (hS : Made g m S) {c : Nat} (hc : c < g.nc) {row : List Corner} (hr : S.corners[c]? = some row)
    {x xb : List Rat} (hxl : g.dim ≤ x.length) (hb : row.length ≤ xb.length) (hx : Within g m c (fun d => x.getD d 0)) :
    ∃ b, cartToBary g S c x xb = .ok b ∧ b.length = xb.length ∧ (∀ i, row.length ≤ i → b.getD i 0 = xb.getD i 0) ∧
      Bary g m c (fun d => x.getD d 0) (fun i => (row.map (·.vertex)).getD i 0) row.length (fun i => b.getD i 0) := by
  have ht := total_pos h hs hS hi hc hr hx
  obtain ⟨b, e, h1, h2, h3⟩ := (cartToBary_eq h hS hc hr hxl hb).1 ht.ne'
  refine ⟨b, e, h1, h3, ⟨?_, ?_, ?_⟩⟩
  · intro i hi'
    rw [h2 i hi']
    exact div_nonneg (W_nonneg hS hr (getD_mem hi').2 hx.1) ht.le
  · rw [Finset.sum_congr rfl (fun i hi' => h2 i (Finset.mem_range.1 hi')), ← Finset.sum_div]
    exact div_self ht.ne'
  · intro i f hi' hf h0 hv
    rw [h2 i hi', W_zero hf h0 (by
      rwa [List.getD_eq_getElem?_getD, List.getElem?_map, (getD_mem hi').1] at hv), zero_div]

/-- The coordinates of any point have sum one, or there are none: the total weight is zero and they are not finite. -/
theorem cartToBary_sum (h : GridOk g m) {S : Static} (hS : Made g m S) {c : Nat} (hc : c < g.nc) {row : List Corner} (hr : S.corners[c]? = some row)
    {x xb : List Rat} (hxl : g.dim ≤ x.length) (hb : row.length ≤ xb.length) (hne : row ≠ []) :
    cartToBary g S c x xb = .error .nonFinite ∨ ∃ b, cartToBary g S c x xb = .ok b ∧ ∑ i ∈ Finset.range row.length, b.getD i 0 = 1 := by
  by_cases h0 : total g m c (fun d => x.getD d 0) row = 0
  · exact Or.inl ((cartToBary_eq h hS hc hr hxl hb).2 h0 hne)
  · obtain ⟨b, e, h1, h2, h3⟩ := (cartToBary_eq h hS hc hr hxl hb).1 h0
    refine Or.inr ⟨b, e, ?_⟩
    rw [Finset.sum_congr rfl (fun i hi' => h2 i (Finset.mem_range.1 hi')), ← Finset.sum_div]
    exact div_self h0

/-- At a vertex its own coordinate is one and all others are zero: the point is on the faces of vertex `v` and on no other, and different vertices are not on the same faces. -/
theorem cartToBary_vertex (h : GridOk g m) (hs : Simple g m) (hi : Independent g m) {S : Static} (hS : Made g m S) {c : Nat} (hc : c < g.nc) {row : List Corner} (hr : S.corners[c]? = some row)
    {x xb : List Rat} (hxl : g.dim ≤ x.length) (hb : row.length ≤ xb.length) {v : Nat} (hv : m.Vertex c v)
    (hon : ∀ f ∈ m.faces c, if v ∈ m.nodes f then dist g c f (fun d => x.getD d 0) = 0 else 0 < dist g c f (fun d => x.getD d 0))
    (hdiff : ∀ w, m.Vertex c w → (∀ f ∈ m.faces c, v ∈ m.nodes f → w ∈ m.nodes f) → w = v) :
    ∃ b, cartToBary g S c x xb = .ok b ∧ ∀ i k, row[i]? = some k → b.getD i 0 = if k.vertex = v then 1 else 0 := by
  have hx : Within g m c (fun d => x.getD d 0) := by
    refine ⟨fun f hf => ?_, v, hv, fun f hf h0 => ?_⟩
    · have := hon f hf
      split at this
      · exact this.ge
      · exact this.le
    · have := hon f hf
      split at this
      · assumption
      · exact absurd h0 this.ne'
  obtain ⟨b, e, -, -, q1, q2, q3⟩ := cartToBary_bary h hs hi hS hc hr hxl hb hx
  have zero : ∀ i k, row[i]? = some k → k.vertex ≠ v → b.getD i 0 = 0 := by
    intro i k hik hne
    have hlt := (List.getElem?_eq_some_iff.1 hik).1
    have hw := (hS.vertex c row hr k.vertex).1 (List.mem_map_of_mem (List.mem_of_getElem? hik))
    by_contra hb0
    refine hne (hdiff k.vertex hw (fun f hf hvf => ?_))
    by_contra hkf
    have h0 := hon f hf
    rw [if_pos hvf] at h0
    exact hb0 (q3 i f hlt hf h0 (by rw [List.getD_eq_getElem?_getD, List.getElem?_map, hik]; exact hkf))
  refine ⟨b, e, fun i k hik => ?_⟩
  have hlt := (List.getElem?_eq_some_iff.1 hik).1
  split
  · next hk =>
    have : ∑ j ∈ Finset.range row.length, b.getD j 0 = b.getD i 0 := by
      apply Finset.sum_eq_single_of_mem i (Finset.mem_range.2 hlt)
      intro j hj hji
      have hjl := Finset.mem_range.1 hj
      obtain ⟨hg, hm⟩ := getD_mem hjl
      refine zero j _ hg (fun he => hji ?_)
      have hnd : (row.map (·.vertex)).Nodup := (hS.increasing c row hr).imp (fun h => by omega)
      refine (List.getElem_inj (h₀ := by simpa using hjl) (h₁ := by simpa using hlt) hnd).1 ?_
      have a1 := (List.getElem?_eq_some_iff.1 hg).2
      have a2 := (List.getElem?_eq_some_iff.1 hik).2
      rw [List.getElem_map, List.getElem_map, a1, a2, he, hk]
    rw [← this]
    exact q2
  · next hk => exact zero i k hik hk

end Opm.Wachspress
