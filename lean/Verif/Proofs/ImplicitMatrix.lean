import Verif.Proofs.ImplicitStore
import Verif.Props.SparseSys
/-!
# Implicit transport: the matrix
-/

namespace Opm.ImplicitTransport
open Opm Opm.Graph Opm.SparseSys

/-- The matrix has room for each cell and its neighbours. -/
structure Pat (G : GridTopo) (Y : Sys) : Prop where
  wf : CSR G.nc G.nc Y.ia Y.ja
  sorted : ∀ c, c < G.nc → (block Y.ja Y.ia c).Pairwise (· ≤ ·)
  diag : ∀ c, c < G.nc → c ∈ block Y.ja Y.ia c
  nbr : ∀ f a b : Nat, G.Sides f a b → b ∈ block Y.ja Y.ia a ∧ a ∈ block Y.ja Y.ia b
  sa : Y.sa.length = Y.ja.length
  res : Y.res.length = G.nc
  inc : Y.inc.length = G.nc
  sol : Y.sol.length = G.nc

/-- Entry `(i, j)` of the matrix: the sum of the numbers stored for it. -/
def entry (Y : Sys) (i j : Nat) : Rat := ∑ k ∈ Finset.Ico (Y.ia.getD i 0) (Y.ia.getD (i + 1) 0), if Y.ja.getD k 0 = j then Y.sa.getD k 0 else 0

/-- A row of the residual or an entry of the matrix. -/
def val (Y : Sys) : Nat ⊕ (Nat × Nat) → Rat
  | .inl c => Y.res.getD c 0
  | .inr p => entry Y p.1 p.2

theorem entry_set {G : GridTopo} {Y : Sys} (h : Pat G Y) {i k j : Nat} (hi : i < G.nc) (hk : InRow Y.ia i k) (hj : Y.ja[k]? = some j) (v : Rat) {i' : Nat} (hi' : i' < G.nc) (j' : Nat) :
    entry { Y with sa := Y.sa.set k (Y.sa.getD k 0 + v) } i' j' = entry Y i' j' + if i' = i ∧ j' = j then v else 0 := by
  obtain ⟨a, b, ha, hb, h1, h2⟩ := hk
  have hkl : k < Y.sa.length := by rw [h.sa]; exact (List.getElem?_eq_some_iff.1 hj).1
  have ea : Y.ia.getD i 0 = a := by simp [List.getD_eq_getElem?_getD, ha]
  have eb : Y.ia.getD (i + 1) 0 = b := by simp [List.getD_eq_getElem?_getD, hb]
  have ej : Y.ja.getD k 0 = j := by simp [List.getD_eq_getElem?_getD, hj]
  unfold entry
  dsimp only
  have hterm : ∀ k', (if Y.ja.getD k' 0 = j' then (Y.sa.set k (Y.sa.getD k 0 + v)).getD k' 0 else 0) =
      (if Y.ja.getD k' 0 = j' then Y.sa.getD k' 0 else 0) + if k' = k then (if j = j' then v else 0) else 0 := by
    intro k'
    rw [IfsTpfa.getD_set hkl]
    by_cases e : k' = k
    · subst e
      rw [ej]
      by_cases e' : j = j' <;> simp [e']
    · simp [e]
  rw [Finset.sum_congr rfl (fun k' _ => hterm k'), Finset.sum_add_distrib, Finset.sum_ite_eq']
  congr 1
  have hcase : k ∈ Finset.Ico (Y.ia.getD i' 0) (Y.ia.getD (i' + 1) 0) ↔ i' = i := by
    rw [Finset.mem_Ico]
    constructor
    · rintro ⟨g1, g2⟩
      rcases Nat.lt_trichotomy i' i with hlt | rfl | hgt
      · have := ia_mono h.wf (i := i' + 1) (j := i) hlt (by omega)
        omega
      · rfl
      · have := ia_mono h.wf (i := i + 1) (j := i') hgt (by omega)
        omega
    · rintro rfl
      omega
  by_cases e : i' = i
  · rw [if_pos (hcase.2 e)]
    by_cases e' : j = j'
    · rw [if_pos e', if_pos ⟨e, e'.symm⟩]
    · rw [if_neg e', if_neg (fun h => e' h.2.symm)]
  · rw [if_neg (fun h => e (hcase.1 h)), if_neg (fun h => e h.1)]

theorem addEntry_ok {G : GridTopo} {Y : Sys} (h : Pat G Y) {i j : Nat} (hi : i < G.nc) (hj : j ∈ block Y.ja Y.ia i) (v : Rat) :
    ∃ sa, addEntry Y i j v = .ok { Y with sa := sa } ∧ Pat G { Y with sa := sa } ∧
      ∀ i' j', i' < G.nc → entry { Y with sa := sa } i' j' = entry Y i' j' + if i' = i ∧ j' = j then v else 0 := by
  obtain ⟨k, e, hk, hkj⟩ := (elm_index_correct G.nc G.nc Y.ia Y.ja h.wf i j hi (h.sorted i hi)).1 hj
  have hkl : k < Y.sa.length := by rw [h.sa]; exact (List.getElem?_eq_some_iff.1 hkj).1
  refine ⟨Y.sa.set k (Y.sa.getD k 0 + v), ?_, ⟨h.wf, h.sorted, h.diag, h.nbr, by simpa using h.sa, h.res, h.inc, h.sol⟩, fun i' j' hi' => entry_set h hi hk hkj v hi' j'⟩
  unfold addEntry
  rw [e, bind_ok, addAt_ok hkl, bind_ok]

theorem addResidual_ok {G : GridTopo} {Y : Sys} (h : Pat G Y) {i : Nat} (hi : i < G.nc) (v : Rat) :
    ∃ r, addResidual Y i v = .ok { Y with res := r } ∧ Pat G { Y with res := r } ∧ ∀ i', r.getD i' 0 = Y.res.getD i' 0 + if i' = i then v else 0 := by
  have hl := h.res
  refine ⟨Y.res.set i (Y.res.getD i 0 + v), ?_, ⟨h.wf, h.sorted, h.diag, h.nbr, h.sa, by simpa using h.res, h.inc, h.sol⟩, fun i' => ?_⟩
  · unfold addResidual
    rw [addAt_ok (by omega), bind_ok]
  · rw [IfsTpfa.getD_set (by omega)]
    by_cases e : i' = i
    · subst e; simp
    · simp [e]

/-- Cells listed as neighbours of `c`. -/
def Nbrs (G : GridTopo) (c : Nat) (l : List Nat) : Prop :=
  (∀ d ∈ l, d < G.nc) ∧ ∀ f a b : Nat, G.Sides f a b → (c = a → b ∈ l) ∧ (c = b → a ∈ l)

theorem neighbours_ok {G : GridTopo} (hv : G.Valid) (h0 : G.cellFacepos[0]? = some 0) {c : Nat} (hc : c < G.nc) : ∃ l, neighbours G c = .ok l ∧ Nbrs G c l := by
  have hp := hv.rowPos h0
  have hle := hp.mono' (c := c) (d := c + 1) (by omega) (by omega)
  obtain ⟨l, e, h1, h2⟩ := forRange_inv (s := ([] : List Nat)) (f := fun i (l : List Nat) => do
      let f ← rd G.cellFaces i
      let c1 ← rd G.faceCells (2 * f)
      let c2 ← rd G.faceCells (2 * f + 1)
      .ok (if 0 ≤ c1 ∧ 0 ≤ c2 then l ++ [(if c1 = (c : Int) then c2 else c1).toNat] else l)) hle
    (fun k l => (∀ d ∈ l, d < G.nc) ∧ ∀ f a b i : Nat, G.Sides f a b → G.HalfFace c f i → i < k → (c = a → b ∈ l) ∧ (c = b → a ∈ l))
    ⟨by simp, by
      intro f a b i _ hh hi
      obtain ⟨_, g, _, _⟩ := (Trans.halfFace_iff hv).1 hh
      omega⟩
    (by
      rintro i l hi hi' ⟨h1, h2⟩
      obtain ⟨f, hf, hlt⟩ := hv.face_at hc hi'
      obtain ⟨a, b, hs⟩ := hv.sides hlt
      obtain ⟨ra, rb⟩ := hv.side_range hs
      rw [rd_of_getElem? hf, bind_ok, rd_of_getElem? hs.1, bind_ok, rd_of_getElem? hs.2, bind_ok]
      refine ⟨_, rfl, ?_, ?_⟩
      · intro d hd
        split at hd
        · rename_i hin
          rcases List.mem_append.1 hd with hd | hd
          · exact h1 d hd
          · rw [List.mem_singleton] at hd
            subst hd
            split <;> omega
        · exact h1 d hd
      · intro f' a' b' i' hs' hh hlt'
        rcases Nat.lt_or_ge i' i with hlt'' | hge
        · obtain ⟨g1, g2⟩ := h2 f' a' b' i' hs' hh hlt''
          split
          · exact ⟨fun h => List.mem_append_left _ (g1 h), fun h => List.mem_append_left _ (g2 h)⟩
          · exact ⟨g1, g2⟩
        · obtain rfl : i' = i := by omega
          obtain ⟨_, _, _, hf'⟩ := (Trans.halfFace_iff hv).1 hh
          rw [hf] at hf'
          cases hf'
          obtain ⟨rfl, rfl⟩ := hs.unique hs'
          have hd := hv.distinct f _ _ hs (by omega)
          rw [if_pos (by omega)]
          refine ⟨fun h => List.mem_append_right _ ?_, fun h => List.mem_append_right _ ?_⟩
          · rw [if_pos (by omega)]; simp
          · rw [if_neg (by omega)]; simp)
  refine ⟨l, ?_, h1, ?_⟩
  · unfold neighbours
    rw [rd_of_getElem? (hp.get (by omega)), bind_ok, rd_of_getElem? (hp.get (by omega)), bind_ok]
    exact e
  · intro f a b hs
    have key : (a = c ∨ b = c) → (c = a → b ∈ l) ∧ (c = b → a ∈ l) := by
      intro h
      have hf : G.HasFace c f := (hv.agree c f a b hs).2 (by omega)
      obtain ⟨i, g1, g2, g3⟩ := (GridTopo.hasFace_iff hv hc).1 hf
      exact h2 f a b i hs ((Trans.halfFace_iff hv).2 ⟨hc, g1, g2, g3⟩) g2
    exact ⟨fun h => (key (.inl h.symm)).1 h, fun h => (key (.inr h.symm)).2 h⟩

theorem length_resize (n : Nat) (v : List Rat) : (resize n v).length = n := by unfold resize; simp; omega

theorem createSystem_ok {G : GridTopo} (hv : G.Valid) (h0 : G.cellFacepos[0]? = some 0) (Y : Sys) : ∃ Y', createSystem G Y = .ok Y' ∧ Pat G Y' := by
  obtain ⟨Y', e, Rs, h1, h2, h3, h4, h5, h6, h7, h8⟩ := loop_inv (n := G.nc) (f := createRow G)
    (s := { ia := [0], ja := [], sa := [], res := resize G.nc Y.res, inc := resize G.nc Y.inc, sol := resize G.nc Y.sol })
    (fun k (Y : Sys) => ∃ Rs : List (List Nat), Rs.length = k ∧ Y.ia = boundaries 0 Rs ∧ Y.ja = Rs.flatten ∧ Y.sa.length = Y.ja.length ∧ Y.res.length = G.nc ∧ Y.inc.length = G.nc ∧
      Y.sol.length = G.nc ∧ ∀ c, c < k → ∃ l, Rs[c]? = some ((c :: l).insertionSort (· ≤ ·)) ∧ Nbrs G c l)
    ⟨[], rfl, rfl, rfl, rfl, length_resize _ _, length_resize _ _, length_resize _ _, by simp⟩
    (by
      rintro c Y hc ⟨Rs, h1, h2, h3, h4, h5, h6, h7, h8⟩
      obtain ⟨l, el, hl⟩ := neighbours_ok hv h0 hc
      have hlen : Y.ia.length = c + 1 := by rw [h2, boundaries_length, h1]
      have hlast : Y.ia[Y.ia.length - 1]? = some Rs.flatten.length := by
        rw [hlen, h2, Nat.add_sub_cancel, boundaries_get _ _ _ (by omega), Nat.zero_add, List.take_of_length_le (by omega)]
      unfold createRow
      rw [check_ok (by simp [hlen]), bind_ok, el, bind_ok, rd_of_getElem? hlast, bind_ok]
      refine ⟨_, rfl, Rs ++ [(c :: l).insertionSort (· ≤ ·)], by simp [h1], ?_, by simp [h3], ?_, h5, h6, h7, ?_⟩
      · dsimp only
        rw [boundaries_snoc, h2, List.length_insertionSort, List.length_cons, Nat.zero_add]
      · simp only [List.length_append, List.length_replicate, List.length_insertionSort, List.length_cons, h4]
      · intro d hd
        rcases Nat.lt_or_ge d c with hlt | hge
        · obtain ⟨l', g1, g2⟩ := h8 d hlt
          exact ⟨l', by rw [List.getElem?_append_left (by omega)]; exact g1, g2⟩
        · obtain rfl : d = c := by omega
          exact ⟨l, by rw [List.getElem?_append_right (by omega), h1]; simp, hl⟩)
  have hb : ∀ c, c < G.nc → ∃ l, block Y'.ja Y'.ia c = (c :: l).insertionSort (· ≤ ·) ∧ Nbrs G c l := by
    intro c hc
    obtain ⟨l, g1, g2⟩ := h8 c hc
    refine ⟨l, ?_, g2⟩
    have := block_eq Rs [] g1
    rw [h2, h3]
    simpa using this
  refine ⟨Y', e, ?_, ?_, ?_, ?_, h4, h5, h6, h7⟩
  · refine ⟨by rw [h2, boundaries_length, h1], ?_, ?_, ?_⟩
    · intro i a b ha hb
      have hi : i + 1 < Y'.ia.length := (List.getElem?_eq_some_iff.1 hb).1
      rw [h2, boundaries_length] at hi
      rw [h2, boundaries_get _ _ _ (by omega)] at ha hb
      cases ha; cases hb
      rw [List.take_add_one]
      simp
    · intro a ha
      rw [h2, boundaries_get _ _ _ (by omega), List.take_of_length_le (by omega)] at ha
      cases ha
      rw [h3]; simp
    · intro a k w _ _ hw
      rw [h3] at hw
      obtain ⟨R, hR, hw⟩ := List.mem_flatten.1 (List.mem_of_getElem? hw)
      obtain ⟨c, hc, hRc⟩ := List.getElem_of_mem hR
      obtain ⟨l, g1, g2⟩ := h8 c (by omega)
      rw [List.getElem?_eq_getElem hc, hRc] at g1
      cases g1
      rw [List.mem_insertionSort, List.mem_cons] at hw
      rcases hw with rfl | hw
      · omega
      · exact g2.1 w hw
  · intro c hc
    obtain ⟨l, g1, _⟩ := hb c hc
    rw [g1]
    exact List.pairwise_insertionSort _ _
  · intro c hc
    obtain ⟨l, g1, _⟩ := hb c hc
    rw [g1, List.mem_insertionSort]
    exact List.mem_cons_self
  · intro f a b hs
    obtain ⟨ra, rb⟩ := hv.side_range hs
    obtain ⟨l, g1, g2⟩ := hb a (by omega)
    obtain ⟨l', g1', g2'⟩ := hb b (by omega)
    rw [g1, g1', List.mem_insertionSort, List.mem_insertionSort]
    exact ⟨List.mem_cons_of_mem _ ((g2.2 f a b hs).1 rfl), List.mem_cons_of_mem _ ((g2'.2 f a b hs).2 rfl)⟩

end Opm.ImplicitTransport
