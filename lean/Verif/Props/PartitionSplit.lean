import Verif.Proofs.PartitionC2C
import Verif.Spec.Split
/-!
# C10: splitting disconnected blocks

The code does not have the property: `partition_create_c2c` leaves the total number of connections in
`pc2c[0]` (`partition.c:311-379`), so the row of cell `0` appears to be empty, `count_block_conns` adds a
huge negative number for the block of cell `0`, and the work array `ja` becomes too small.

* `split_disconnected_heap_overflow`, `split_disconnected_wrong_split`: concrete inputs showing it.
* `split_disconnected_partial`: the property for partitions in which cell `0` is alone in its block.
* `split_disconnected_repaired`: the full property for the function with the missing
  `pc2c[0] = 0;` added.
-/

namespace Opm.Partition
open Opm Opm.Graph Opm.Bucket

/-- `partition_split_disconnected` with the statement `(*pc2c)[0] = 0;` added at the end of
`partition_create_c2c` (`partition.c:364`).  This is not the code in the repository. -/
def splitRepaired (fuel nc nneigh : Nat) (neigh : List Int) (p : List Int) : M (List Int × Int) := do
  let g ← createC2C nc nneigh neigh
  let pc2c ← wr g.1 0 0
  splitWith fuel nc pc2c g.2 p

theorem linked_iff {q : List Nat} {R : Nat → List Nat} {nneigh : Nat} {neigh : List Int}
    (hn : Neigh q.length nneigh neigh)
    (h1 : ∀ c d : Nat, c < q.length → d ∈ R c → c = d ∨ Adjacent nneigh neigh c d)
    (h2 : ∀ c d : Nat, c < q.length → Adjacent nneigh neigh c d → q[c]? = q[d]? → d ∈ R c) {c d : Nat} :
    Linked q R c d ↔ Spec.ConnectedInBlock nneigh neigh (ints q) c d := by
  have hints : ∀ c d : Nat, (ints q)[c]? = (ints q)[d]? ↔ q[c]? = q[d]? := by
    intro c d
    simp only [ints, List.getElem?_map]
    constructor
    · intro h
      exact Option.map_injective (fun a b hab => by omega) h
    · intro h; rw [h]
  constructor
  · intro h
    induction h with
    | refl => exact .refl
    | tail _ hl ih =>
      rcases h1 _ _ hl.1 hl.2.1 with rfl | ha
      · exact ih
      · exact ih.tail ⟨ha, (hints _ _).2 hl.2.2⟩
  · intro h
    induction h with
    | refl => exact .refl
    | tail _ hl ih =>
      have hq := (hints _ _).1 hl.2
      have hc : _ < q.length := Adjacent.lt hn (Adjacent.symm hl.1)
      exact ih.tail ⟨hc, h2 _ _ hc hl.1 hq, hq⟩

theorem splitOf_of_split {q : List Nat} {R : Nat → List Nat} {nneigh : Nat} {neigh : List Int} {p' : List Int} {r : Int}
    (hq : q ≠ []) (hl : ∀ c d, Linked q R c d ↔ Spec.ConnectedInBlock nneigh neigh (ints q) c d)
    (h : Split q R (nb q) p' r) : Spec.SplitOf nneigh neigh (ints q) p' r := by
  obtain ⟨hmax, hpos⟩ := nb_mem hq
  have hmem : ∀ y ∈ ints q, y < nb q := by
    intro y hy
    simp only [ints, List.mem_map] at hy
    obtain ⟨x, hx, rfl⟩ := hy
    have := lt_nb hx; omega
  have hget : ∀ {c : Nat}, c < q.length → ∃ x, q[c]? = some x ∧ x < nb q := fun hc =>
    ⟨_, List.getElem?_eq_getElem hc, lt_nb (List.getElem_mem hc)⟩
  have hbig : ∀ v : Int, (∀ y ∈ ints q, y < v) → (nb q : Int) ≤ v := by
    intro v hv
    have := hv _ (List.mem_map.2 ⟨_, hmax, rfl⟩)
    omega
  refine ⟨by rw [h.len, ints_length], ?_, ?_, ?_, ?_, h.ret⟩
  · intro c d hc hd
    rw [ints_length] at hc hd
    obtain ⟨x, hx, hxn⟩ := hget hc
    obtain ⟨y, hy, hyn⟩ := hget hd
    rw [h.conn c d x y hx hy hxn hyn, hl]
  · intro c x v hx hv
    have hc := (List.getElem?_eq_some_iff.1 hx).1
    rw [ints_length] at hc
    obtain ⟨x', hx', hxn⟩ := hget hc
    obtain ⟨w, hw, hor⟩ := h.val c x' hx' hxn
    rw [hv] at hw
    cases hw
    rw [ints_get hx'] at hx
    cases hx
    rcases hor with h | h
    · exact .inl h
    · exact .inr (fun y hy => by have := hmem y hy; omega)
  · intro x hx
    simp only [ints, List.mem_map] at hx
    obtain ⟨x', hx', rfl⟩ := hx
    obtain ⟨c, hc⟩ := List.mem_iff_getElem?.1 hx'
    obtain ⟨d, _, hd⟩ := h.old c x' hc
    exact List.mem_of_getElem? hd
  · intro v
    constructor
    · rintro ⟨hv, hnew⟩
      have hge := hbig v hnew
      obtain ⟨c, hc⟩ := List.mem_iff_getElem?.1 hv
      have hcl := (List.getElem?_eq_some_iff.1 hc).1
      rw [h.len] at hcl
      obtain ⟨x, hx, hxn⟩ := hget hcl
      obtain ⟨w, hw, hor⟩ := h.val c x hx hxn
      rw [hc] at hw; cases hw
      refine ⟨((nb q - 1 : Nat) : Int), List.mem_map.2 ⟨_, hmax, rfl⟩, fun y hy => ?_, ?_, ?_⟩
      · have := hmem y hy; omega
      · omega
      · omega
    · rintro ⟨m, hm, hle, h1, h2⟩
      have hm1 := hmem m hm
      have hm2 := hle _ (List.mem_map.2 ⟨_, hmax, rfl⟩)
      obtain ⟨c, hc, _⟩ := h.new v (by omega) (by omega)
      exact ⟨List.mem_of_getElem? hc, fun y hy => by have := hmem y hy; omega⟩

theorem neigh_of {p : List Int} {nneigh : Nat} {neigh : List Int} (hlen : neigh.length = 2 * nneigh)
    (hlt : ∀ x ∈ neigh, x < p.length)
    (hne : ∀ i : Nat, neigh[2 * i]? = neigh[2 * i + 1]? → ∀ a : Int, neigh[2 * i]? = some a → a < 0) :
    Neigh p.length nneigh neigh where
  len := by omega
  lt := hlt
  ne := by
    intro i a b _ ha hb h0 hab
    subst hab
    have := hne i (ha.trans hb.symm) a ha
    omega

/-- **C10, full statement, for the repaired function.**  For every non-empty vector of non-negative
block numbers and every non-empty list of neighbour pairs (valid cells, no cell paired with itself,
negative entries meaning "outside"), the call returns and its result is the correct one. -/
theorem split_disconnected_repaired (p : List Int) (nneigh : Nat) (neigh : List Int) (hne : p ≠ [])
    (hpos : ∀ x ∈ p, 0 ≤ x) (hlen : neigh.length = 2 * nneigh) (hnn : 0 < nneigh) (hlt : ∀ x ∈ neigh, x < p.length)
    (hself : ∀ i : Nat, neigh[2 * i]? = neigh[2 * i + 1]? → ∀ a : Int, neigh[2 * i]? = some a → a < 0) :
    ∃ fuel0, ∀ fuel, fuel0 ≤ fuel → ∃ p' r, splitRepaired fuel p.length nneigh neigh p = .ok (p', r) ∧
      Spec.SplitOf nneigh neigh p p' r := by
  have hn := neigh_of hlen hlt hself
  obtain ⟨q, rfl⟩ := exists_ints p hpos
  have hq : q ≠ [] := by rintro rfl; exact hne rfl
  have hql : 0 < q.length := List.length_pos_iff.2 hq
  rw [ints_length] at hn
  obtain ⟨pc2c, c2c, e1, hpl, hz, hptr, hdat⟩ := createC2C_ok hn hql hnn
  set A := allItems q.length nneigh neigh with hA
  have hget : ∀ c : Nat, c ≤ q.length → (pc2c.set 0 0)[c]? = some (start A c) := by
    intro c hc
    cases c with
    | zero => rw [List.getElem?_set_self (by omega)]; rfl
    | succ c => rw [List.getElem?_set_ne (by omega)]; exact hptr c hc
  have hrow : ∀ c d : Nat, c < q.length → (d ∈ rowOf A c ↔ d = c ∨ Adjacent nneigh neigh c d) := by
    intro c d hc
    rw [hA, rowOf_allItems hc, List.mem_cons, mem_row_nItems hn]
  have hc2c : C2C q.length (pc2c.set 0 0) c2c (rowOf A) := by
    constructor
    · intro c hc
      refine ⟨_, _, hget c (by omega), hget (c + 1) hc, by simp [start], fun k x hk => hdat c k x hc hk⟩
    · intro c hc d hd
      rcases (hrow c d hc).1 hd with rfl | h
      · exact hc
      · exact h.lt hn
  have hg : Good q (rowOf A) := by
    constructor
    · rintro c d ⟨hc, hd, hqq⟩
      rcases (hrow c d hc).1 hd with rfl | h
      · exact ⟨hc, hd, hqq⟩
      · exact ⟨h.lt hn, (hrow d c (h.lt hn)).2 (.inr h.symm), hqq.symm⟩
    · intro c k hc hk
      rw [hA, rowOf_allItems hc] at hk
      cases k with
      | zero => rfl
      | succ k =>
        rw [List.getElem?_cons_succ] at hk
        have := (mem_row_nItems hn).1 (List.mem_of_getElem? hk)
        exact absurd rfl (this.ne hn)
  obtain ⟨fuel0, hf⟩ := splitWith_ok hc2c hg (by
    intro b loc _
    right
    refine cap_of_rows loc (fun c hc => ?_)
    have hcl := cells_lt hc
    rw [List.getD_eq_getElem?_getD, List.getD_eq_getElem?_getD, hget c (by omega), hget (c + 1) hcl]
    simp only [start, Option.getD_some]; omega)
  refine ⟨fuel0, fun fuel hfuel => ?_⟩
  obtain ⟨p', r, h1, h2⟩ := hf fuel hfuel
  refine ⟨p', r, ?_, ?_⟩
  · unfold splitRepaired
    rw [ints_length, e1, bind_ok, wr_ok (by simp only; omega), bind_ok, h1]
  · refine splitOf_of_split hq (fun c d => linked_iff hn ?_ ?_) h2
    · intro c d hc hd
      rcases (hrow c d hc).1 hd with rfl | h
      · exact .inl rfl
      · exact .inr h
    · intro c d hc hd _
      exact (hrow c d hc).2 (.inr hd)

/-- **C10, partial: the code as it is.**  The same statement under the additional hypothesis that
cell `0` is the only cell of its block.  Missing: partitions in which cell `0` shares its block with
another cell, for which the statement is false (see below). -/
theorem split_disconnected_partial (p : List Int) (nneigh : Nat) (neigh : List Int) (hne : p ≠ [])
    (hpos : ∀ x ∈ p, 0 ≤ x) (hlen : neigh.length = 2 * nneigh) (hnn : 0 < nneigh) (hlt : ∀ x ∈ neigh, x < p.length)
    (hself : ∀ i : Nat, neigh[2 * i]? = neigh[2 * i + 1]? → ∀ a : Int, neigh[2 * i]? = some a → a < 0)
    (halone : ∀ c : Nat, 0 < c → p[c]? ≠ p[0]?) :
    ∃ fuel0, ∀ fuel, fuel0 ≤ fuel → ∃ p' r, splitDisconnected fuel p.length nneigh neigh p = .ok (p', r) ∧
      Spec.SplitOf nneigh neigh p p' r := by
  have hn := neigh_of hlen hlt hself
  obtain ⟨q, rfl⟩ := exists_ints p hpos
  have hq : q ≠ [] := by rintro rfl; exact hne rfl
  have hql : 0 < q.length := List.length_pos_iff.2 hq
  rw [ints_length] at hn
  have halone' : ∀ c : Nat, q[c]? = q[0]? → c = 0 := by
    intro c hc
    by_contra h0
    refine halone c (by omega) ?_
    simp only [ints, List.getElem?_map, hc]
  obtain ⟨pc2c, c2c, e1, hpl, hz, hptr, hdat⟩ := createC2C_ok hn hql hnn
  set A := allItems q.length nneigh neigh with hA
  have hget : ∀ c : Nat, 0 < c → c ≤ q.length → pc2c[c]? = some (start A c) := by
    intro c h0 hc
    obtain ⟨c, rfl⟩ : ∃ k, c = k + 1 := ⟨c - 1, by omega⟩
    exact hptr c hc
  have hrow : ∀ c d : Nat, c < q.length → (d ∈ rowOf A c ↔ d = c ∨ Adjacent nneigh neigh c d) := by
    intro c d hc
    rw [hA, rowOf_allItems hc, List.mem_cons, mem_row_nItems hn]
  -- the rows the rest of the function sees: the one of cell `0` is empty
  let R : Nat → List Nat := fun c => if c = 0 then [] else rowOf A c
  have hR : ∀ c : Nat, c ≠ 0 → R c = rowOf A c := fun c hc => if_neg hc
  have hR0 : R 0 = [] := if_pos rfl
  have hc2c : C2C q.length pc2c c2c R := by
    constructor
    · intro c hc
      by_cases h0 : c = 0
      · subst h0
        have : start A 1 ≤ start A q.length := start_mono A hc
        refine ⟨_, _, hz, hget 1 (by omega) hc, by rw [hR0]; simp only [List.length_nil]; omega, ?_⟩
        intro k x hk
        rw [hR0] at hk; simp at hk
      · rw [hR c h0]
        refine ⟨_, _, hget c (by omega) (by omega), hget (c + 1) (by omega) hc, by simp [start], fun k x hk => hdat c k x hc hk⟩
    · intro c hc d hd
      by_cases h0 : c = 0
      · subst h0; rw [hR0] at hd; simp at hd
      · rw [hR c h0] at hd
        rcases (hrow c d hc).1 hd with rfl | h
        · exact hc
        · exact h.lt hn
  have hg : Good q R := by
    constructor
    · rintro c d ⟨hc, hd, hqq⟩
      have h0 : c ≠ 0 := by rintro rfl; rw [hR0] at hd; simp at hd
      have hd0 : d ≠ 0 := by rintro rfl; exact h0 (halone' c hqq)
      rw [hR c h0] at hd
      rcases (hrow c d hc).1 hd with rfl | h
      · exact ⟨hc, by rw [hR _ h0]; exact hd, hqq⟩
      · exact ⟨h.lt hn, by rw [hR d hd0]; exact (hrow d c (h.lt hn)).2 (.inr h.symm), hqq.symm⟩
    · intro c k hc hk
      have h0 : c ≠ 0 := by rintro rfl; rw [hR0] at hk; simp at hk
      rw [hR c h0, hA, rowOf_allItems hc] at hk
      cases k with
      | zero => rfl
      | succ k =>
        rw [List.getElem?_cons_succ] at hk
        have := (mem_row_nItems hn).1 (List.mem_of_getElem? hk)
        exact absurd rfl (this.ne hn)
  obtain ⟨fuel0, hf⟩ := splitWith_ok hc2c hg (by
    intro b loc _
    by_cases hb0 : q[0]? = some b
    · left
      have hcs : ∀ z ∈ (cells q b).zipIdx, F q b R (fun d => loc.getD d 0) z = [] := by
        intro z hz
        have h1 := mem_cells.1 (List.fst_mem_of_mem_zipIdx hz)
        have h2 := halone' z.1 (h1.trans hb0.symm)
        simp only [F, h2, hR0]; rfl
      unfold items
      rw [List.flatMap_eq_nil_iff]
      exact hcs
    · right
      refine cap_of_rows loc (fun c hc => ?_)
      have hcl := cells_lt hc
      have h0 : c ≠ 0 := by rintro rfl; exact hb0 (mem_cells.1 hc)
      rw [List.getD_eq_getElem?_getD, List.getD_eq_getElem?_getD, hget c (by omega) (by omega), hget (c + 1) (by omega) hcl, hR c h0]
      simp only [start, Option.getD_some]; omega)
  refine ⟨fuel0, fun fuel hfuel => ?_⟩
  obtain ⟨p', r, h1, h2⟩ := hf fuel hfuel
  refine ⟨p', r, ?_, ?_⟩
  · unfold splitDisconnected
    rw [ints_length, e1, bind_ok, h1]
  · refine splitOf_of_split hq (fun c d => linked_iff hn ?_ ?_) h2
    · intro c d hc hd
      have h0 : c ≠ 0 := by rintro rfl; rw [hR0] at hd; simp at hd
      rw [hR c h0] at hd
      rcases (hrow c d hc).1 hd with rfl | h
      · exact .inl rfl
      · exact .inr h
    · intro c d hc hd hqq
      have h0 : c ≠ 0 := by
        rintro rfl
        have := halone' d hqq.symm
        exact hd.ne hn this.symm
      rw [hR c h0]
      exact (hrow c d hc).2 (.inr hd)

/-- Non-vacuity of the partial theorem and a run: cell `0` alone, block `1 = {1, 2, 4}` falls into
`{1, 2}` and `{4}`, one boundary connection `(-1, 3)`. -/
example : let p : List Int := [0, 1, 1, 2, 1]; let neigh : List Int := [0, 1, 1, 2, 2, 3, -1, 3, 3, 4]
    p ≠ [] ∧ (∀ x ∈ p, 0 ≤ x) ∧ neigh.length = 2 * 5 ∧ (∀ x ∈ neigh, x < p.length) ∧
    (∀ c : Nat, 0 < c → c < 5 → p[c]? ≠ p[0]?) ∧
    splitDisconnected 1000 5 5 neigh p = .ok ([0, 1, 1, 2, 3], 1) ∧
    splitRepaired 1000 5 5 neigh p = .ok ([0, 1, 1, 2, 3], 1) := by
  refine ⟨?_, ?_, ?_, ?_, ?_, ?_, ?_⟩
  · decide
  · decide
  · decide
  · decide
  · intro c h0 h5
    have : c = 1 ∨ c = 2 ∨ c = 3 ∨ c = 4 := by omega
    rcases this with rfl | rfl | rfl | rfl <;> decide
  · decide +kernel
  · decide +kernel

/-- **Finding.**  Two connected cells in one block: the real function writes past the end of `ja`. -/
theorem split_disconnected_heap_overflow (fuel : Nat) : splitDisconnected fuel 2 1 [0, 1] [0, 0] = .error .ub := by
  have h1 : createC2C 2 1 [0, 1] = .ok ([4, 2, 4], [0, 1, 1, 0]) := by decide +kernel
  have h2 : maxBlock 2 [0, 0] = .ok 0 := by decide +kernel
  have h3 : invert 2 [0, 0] [0, 0] [0, 0] = .ok ([0, 2], [0, 1]) := by decide +kernel
  have h4 : localidx 1 [0, 2] [0, 1] [0, 0] = .ok [0, 1] := by decide +kernel
  have h5 : countBlockConns 1 [0, 2] [0, 1] [4, 2, 4] = .ok (2, 0) := by decide +kernel
  have h6 : createBlockConns 0 [0, 0] [0, 1] [0, 2] [0, 1] [4, 2, 4] [0, 1, 1, 0] [0, 0, 0] [] = .error .ub := by decide +kernel
  have h7 : splitBlock fuel 0 [0, 1] [0, 2] [0, 1] [4, 2, 4] [0, 1, 1, 0] 0
      { p := [0, 0], ia := [0, 0, 0], ja := [], colour := [0, 0], work := [0, 0, 0, 0], ret := 0 } = .error .ub := by
    unfold splitBlock
    rw [h6]; rfl
  unfold splitDisconnected splitWith
  rw [h1, bind_ok, h2, bind_ok]
  show (do
    let inv ← invert 2 [0, 0] [0, 0] [0, 0]
    let loc ← localidx 1 inv.1 inv.2 [0, 0]
    let sz ← countBlockConns 1 inv.1 inv.2 [4, 2, 4]
    let st ← splitBlock fuel 0 loc inv.1 inv.2 [4, 2, 4] [0, 1, 1, 0] 0
      { p := [0, 0], ia := List.replicate (sz.1.toNat + 1) 0, ja := List.replicate sz.2.toNat 0,
        colour := List.replicate sz.1.toNat 0, work := List.replicate (2 * sz.1.toNat) 0, ret := 0 }
    .ok (st.p, st.ret)) = .error .ub
  rw [h3, bind_ok, h4, bind_ok, h5, bind_ok]
  show (do
    let st ← splitBlock fuel 0 [0, 1] [0, 2] [0, 1] [4, 2, 4] [0, 1, 1, 0] 0
      { p := [0, 0], ia := [0, 0, 0], ja := [], colour := [0, 0], work := [0, 0, 0, 0], ret := 0 }
    .ok (st.p, st.ret)) = .error .ub
  rw [h7]; rfl

/-- **Finding.**  Five cells, blocks `{0, 1}` and `{2, 3, 4}`, connections `0–1, 2–3, 3–4`.  Both
blocks are connected; the real function splits cell `1` off and reports one new block. -/
theorem split_disconnected_wrong_split :
    splitDisconnected 1000 5 4 [0, 1, 2, 3, 3, 4, -1, 0] [0, 0, 1, 1, 1] = .ok ([0, 2, 1, 1, 1], 1) ∧
    ¬ Spec.SplitOf 4 [0, 1, 2, 3, 3, 4, -1, 0] [0, 0, 1, 1, 1] [0, 2, 1, 1, 1] 1 := by
  refine ⟨by decide +kernel, fun h => ?_⟩
  have := (h.same_iff 0 1 (by decide) (by decide)).2
    (.single ⟨⟨0, by decide, .inl ⟨by decide, by decide⟩⟩, by decide⟩)
  exact absurd this (by decide)

end Opm.Partition
