import Verif.Proofs.IfsSys
/-! # The sparsity pattern of the pressure matrix -/

namespace Opm

/-- A loop whose body works off a list. -/
theorem loop_flatMap {σ α : Type} {n : Nat} {f : Nat → σ → M σ} (g : σ → α → M σ) (L : Nat → List α) (h : ∀ i s, i < n → f i s = (L i).foldlM g s) (s : σ) :
    loop n f s = ((List.range n).flatMap L).foldlM g s := by
  induction n with
  | zero => rfl
  | succ n ih =>
    rw [loop_succ, ih (fun i s hi => h i s (by omega)), List.range_succ, List.flatMap_append, List.foldlM_append]
    congr 1
    funext t
    rw [h n t (by omega)]
    simp

theorem forRange_flatMap {σ α : Type} {a b : Nat} {f : Nat → σ → M σ} (g : σ → α → M σ) (L : Nat → List α) (h : ∀ i s, a ≤ i → i < b → f i s = (L i).foldlM g s) (s : σ) :
    forRange a b f s = ((List.range (b - a)).flatMap (fun k => L (a + k))).foldlM g s :=
  loop_flatMap g (fun k => L (a + k)) (fun i s hi => h (a + i) s (by omega) (by omega)) s

theorem rowLoop_flatMap {σ α : Type} {n : Nat} {pos : List Nat} (hp : RowPos n pos) {f : Nat → Nat → σ → M σ} (g : σ → α → M σ) (L : Nat → Nat → List α)
    (h : ∀ c i s, c < n → pos.getD c 0 ≤ i → i < pos.getD (c + 1) 0 → f c i s = (L c i).foldlM g s) (s : σ) :
    rowLoop n pos f s =
      ((List.range n).flatMap (fun c => (List.range (pos.getD (c + 1) 0 - pos.getD c 0)).flatMap (fun k => L c (pos.getD c 0 + k)))).foldlM g s := by
  have key : ∀ k, k ≤ n → loop k (fun c (r : Nat × σ) => do
      let t ← (Except.ok () : M Unit)
      let e ← rd pos (c + 1)
      let s ← forRange r.1 e ((fun c (_ : Unit) => f c) c t) r.2
      .ok (max r.1 e, s)) (0, s) =
      (do
        let t ← ((List.range k).flatMap (fun c => (List.range (pos.getD (c + 1) 0 - pos.getD c 0)).flatMap (fun k => L c (pos.getD c 0 + k)))).foldlM g s
        .ok (pos.getD k 0, t)) := by
    intro k hk
    induction k with
    | zero => rw [loop_zero, hp.get_zero]; rfl
    | succ k ih =>
      rw [loop_succ, ih (by omega), List.range_succ, List.flatMap_append, List.foldlM_append]
      cases hfold : (((List.range k).flatMap (fun c => (List.range (pos.getD (c + 1) 0 - pos.getD c 0)).flatMap (fun k => L c (pos.getD c 0 + k)))).foldlM g s : M σ) with
      | error e => rfl
      | ok t =>
        simp only [bind_ok]
        rw [rd_of_getElem? (hp.get (c := k + 1) hk), bind_ok, forRange_flatMap g (L k) (fun i s h1 h2 => h k i s (by omega) h1 h2),
          Nat.max_eq_right (hp.le (by omega))]
        simp
  unfold rowLoop rowLoopPre
  rw [key n (le_refl _)]
  cases (((List.range n).flatMap (fun c => (List.range (pos.getD (c + 1) 0 - pos.getD c 0)).flatMap (fun k => L c (pos.getD c 0 + k)))).foldlM g s : M σ) <;> rfl

namespace IfsTpfa
open Opm.SparseSys Graph

/-- The connections of a face. -/
def faceItems (G : GridTopo) (f : Nat) : List (Nat × Nat) :=
  let a := G.faceCells.getD (2 * f) 0
  let b := G.faceCells.getD (2 * f + 1) 0
  if 0 ≤ a ∧ 0 ≤ b then [(a.toNat, b.toNat), (b.toNat, a.toNat)] else []

/-- The connections of a perforation. -/
def perfItems (nc : Nat) (W : Wells.W) (w i : Nat) : List (Nat × Nat) :=
  let c := (W.cells.getD i 0).toNat
  [(c, nc + w), (nc + w, c)]

def wellItems (nc : Nat) (W : Wells.W) : List (Nat × Nat) :=
  (List.range W.nw).flatMap (fun w => (List.range (W.connpos.getD (w + 1) 0 - W.connpos.getD w 0)).flatMap (fun k => perfItems nc W w (W.connpos.getD w 0 + k)))

/-- The connections of faces and wells. -/
def otherItems (G : GridTopo) (W : Option Wells.W) : List (Nat × Nat) :=
  (List.range G.nf).flatMap (faceItems G) ++ match W with
    | none => []
    | some W => wellItems G.nc W

/-- All matrix elements. -/
def allItems (G : GridTopo) (W : Option Wells.W) : List (Nat × Nat) :=
  (List.range (G.nc + numWells W)).map (fun i => (i, i)) ++ otherItems G W

theorem index_ok (c : Nat) : index (c : Int) = .ok c := by
  unfold index
  rw [if_neg (by omega)]
  simp

theorem getD_of_getElem? {α : Type _} {l : List α} {i : Nat} {v d : α} (h : l[i]? = some v) : l.getD i d = v := by
  simp [List.getD_eq_getElem?_getD, h]

theorem cell_at {G : GridTopo} {W : Wells.W} (hW : WellsOk G W) {i : Nat} (hi : i < numPerf W) :
    W.cells[i]? = some (((W.cells.getD i 0).toNat : Nat) : Int) ∧ (W.cells.getD i 0).toNat < G.nc := by
  obtain ⟨c, hc, hlt⟩ := hW.cell i hi
  have e : (W.cells.getD i 0).toNat = c := by rw [getD_of_getElem? hc]; simp
  rw [e]
  exact ⟨hc, hlt⟩

theorem otherConns_ok {G : GridTopo} (hv : G.Valid) {W : Option Wells.W} (hW : ∀ W', W = some W' → WellsOk G W') (op : Nat → Nat → Csr → M Csr) (A : Csr) :
    otherConns G W op A = (otherItems G W).foldlM (fun A p => op p.1 p.2 A) A := by
  unfold otherConns otherItems
  rw [List.foldlM_append, loop_flatMap (fun A p => op p.1 p.2 A) (faceItems G)]
  · congr 1
    funext B
    cases W with
    | none => rfl
    | some W =>
      have hw := hW W rfl
      simp only []
      unfold wellItems
      rw [rowLoop_flatMap hw.pos (fun A p => op p.1 p.2 A) (perfItems G.nc W)]
      intro w i s hc h1 h2
      obtain ⟨h3, _⟩ := cell_at hw (hw.pos.lt_total hc h2)
      unfold perfConn perfItems
      rw [rd_of_getElem? h3, bind_ok, index_ok, bind_ok]
      simp only [List.foldlM_cons, List.foldlM_nil]
      cases op (W.cells.getD i 0).toNat (G.nc + w) s with
      | error e => rfl
      | ok B =>
        simp only [bind_ok]
        cases op (G.nc + w) (W.cells.getD i 0).toNat B <;> rfl
  · intro f s hf
    obtain ⟨a, b, hs⟩ := hv.sides hf
    unfold faceConn faceItems
    rw [rd_of_getElem? hs.1, bind_ok, rd_of_getElem? hs.2, bind_ok, getD_of_getElem? hs.1, getD_of_getElem? hs.2]
    simp only []
    split
    · simp only [List.foldlM_cons, List.foldlM_nil]
      cases op a.toNat b.toNat s with
      | error e => rfl
      | ok B =>
        simp only [bind_ok]
        cases op b.toNat a.toNat B <;> rfl
    · rfl

theorem faceItems_of {G : GridTopo} {f a b : Nat} (hs : G.Sides f a b) : faceItems G f = [(a, b), (b, a)] := by
  unfold faceItems
  simp only [getD_of_getElem? hs.1, getD_of_getElem? hs.2]
  rw [if_pos (by omega)]
  simp

theorem faceItems_lt {G : GridTopo} (hv : G.Valid) {f : Nat} (hf : f < G.nf) : ∀ p ∈ faceItems G f, p.1 < G.nc ∧ p.2 < G.nc ∧ p.1 ≠ p.2 := by
  intro p hp
  obtain ⟨a, b, hs⟩ := hv.sides hf
  obtain ⟨ra, rb⟩ := hv.side_range hs
  unfold faceItems at hp
  simp only [getD_of_getElem? hs.1, getD_of_getElem? hs.2] at hp
  split at hp
  · rename_i h
    have hne := hv.distinct f a b hs h.1
    rw [List.mem_cons, List.mem_singleton] at hp
    rcases hp with rfl | rfl
    · refine ⟨?_, ?_, ?_⟩ <;> simp only <;> omega
    · refine ⟨?_, ?_, ?_⟩ <;> simp only <;> omega
  · simp at hp

theorem mem_wellItems {G : GridTopo} {W : Wells.W} (hW : WellsOk G W) {p : Nat × Nat} : p ∈ wellItems G.nc W ↔
    ∃ w i c, IsPerf W w i c ∧ w < W.nw ∧ (p = (c, G.nc + w) ∨ p = (G.nc + w, c)) := by
  unfold wellItems
  simp only [List.mem_flatMap, List.mem_range]
  constructor
  · rintro ⟨w, hw, k, hk, hp⟩
    have hlt : W.connpos.getD w 0 + k < numPerf W := hW.pos.lt_total hw (by omega)
    refine ⟨w, W.connpos.getD w 0 + k, _, ⟨_, _, hW.pos.get (by omega), hW.pos.get (c := w + 1) hw, by omega, by omega, (cell_at hW hlt).1⟩, hw, ?_⟩
    simpa [perfItems] using hp
  · rintro ⟨w, i, c, ⟨a, b, ha, hb, h1, h2, hc⟩, hw, hp⟩
    rw [hW.pos.get (by omega)] at ha
    rw [hW.pos.get (c := w + 1) hw] at hb
    cases ha; cases hb
    refine ⟨w, hw, i - W.connpos.getD w 0, by omega, ?_⟩
    rw [show W.connpos.getD w 0 + (i - W.connpos.getD w 0) = i by omega]
    unfold perfItems
    rw [getD_of_getElem? hc]
    simpa using hp

theorem isPerf_lt {G : GridTopo} {W : Wells.W} (hW : WellsOk G W) {w i c : Nat} (h : IsPerf W w i c) (hw : w < W.nw) : i < numPerf W ∧ c < G.nc := by
  obtain ⟨a, b, ha, hb, h1, h2, hc⟩ := h
  rw [hW.pos.get (c := w + 1) hw] at hb
  cases hb
  have hi : i < numPerf W := hW.pos.lt_total hw h2
  obtain ⟨h3, h4⟩ := cell_at hW hi
  rw [hc] at h3
  have := Option.some.inj h3
  exact ⟨hi, by omega⟩

theorem allItems_lt {G : GridTopo} (hv : G.Valid) {W : Option Wells.W} (hW : ∀ W', W = some W' → WellsOk G W') :
    ∀ p ∈ allItems G W, p.1 < G.nc + numWells W ∧ p.2 < G.nc + numWells W := by
  intro p hp
  unfold allItems otherItems at hp
  rw [List.mem_append, List.mem_append] at hp
  rcases hp with hp | hp | hp
  · obtain ⟨i, hi, rfl⟩ := List.mem_map.1 hp
    have := List.mem_range.1 hi
    exact ⟨this, this⟩
  · obtain ⟨f, hf, hp⟩ := List.mem_flatMap.1 hp
    obtain ⟨h1, h2, _⟩ := faceItems_lt hv (List.mem_range.1 hf) p hp
    omega
  · cases W with
    | none => simp at hp
    | some W =>
      obtain ⟨w, i, c, hper, hw, h⟩ := (mem_wellItems (hW W rfl)).1 hp
      obtain ⟨_, hc⟩ := isPerf_lt (hW W rfl) hper hw
      unfold numWells
      simp only
      rcases h with rfl | rfl <;> simp only <;> omega

theorem selfCount_ok (m : Nat) :
    loop m (fun c (A : Csr) => do
      let ia ← wr A.ia (c + 1) 1
      .ok { A with ia := ia }) { m := m, nnz := 0, ia := List.replicate (m + 1) 0, ja := [] } =
    ((List.range m).map (fun i => (i, i))).foldlM (fun A (p : Nat × Nat) => countElm A p.1) { m := m, nnz := 0, ia := List.replicate (m + 1) 0, ja := [] } := by
  rw [List.foldlM_map]
  have h2 := loop_flatMap (n := m) (f := fun i A => countElm A i) (fun A i => countElm A i) (fun i => [i])
    (by intro i s _; simp only [List.foldlM_cons, List.foldlM_nil]; cases countElm s i <;> rfl) { m := m, nnz := 0, ia := List.replicate (m + 1) 0, ja := [] }
  have e : (List.range m).flatMap (fun i => [i]) = List.range m := by simp
  rw [e] at h2
  rw [← h2]
  have key : ∀ (f : Nat → Csr → M Csr), (∀ k, k < m → ∀ A : Csr, A.ia[k + 1]? = some 0 → f k A = .ok { A with ia := A.ia.set (k + 1) 1 }) →
      ∀ k, k ≤ m → loop k f { m := m, nnz := 0, ia := List.replicate (m + 1) 0, ja := [] } =
        .ok { m := m, nnz := 0, ia := 0 :: (List.replicate k 1 ++ List.replicate (m - k) 0), ja := [] } := by
    intro f hf k hk
    induction k with
    | zero => rw [loop_zero]; simp [List.replicate_succ]
    | succ k ih =>
      rw [loop_succ, ih (by omega), bind_ok, hf k (by omega)]
      · have e2 : m - k = (m - (k + 1)) + 1 := by omega
        rw [e2]
        simp only [List.set_cons_succ, Except.ok.injEq, Csr.mk.injEq, List.cons.injEq, true_and, and_true]
        rw [List.set_append_right _ _ (by simp), List.length_replicate, Nat.sub_self, List.replicate_succ, List.set_cons_zero, List.replicate_succ',
          List.append_assoc]
        rfl
      · simp only [List.getElem?_cons_succ]
        rw [List.getElem?_append_right (by simp), List.length_replicate, Nat.sub_self]
        rw [show m - k = (m - (k + 1)) + 1 by omega, List.replicate_succ]
        rfl
  rw [key _ _ m (le_refl _), key _ _ m (le_refl _)]
  · intro k hk A hA
    unfold countElm bump
    have := (List.getElem?_eq_some_iff.1 hA).1
    rw [rd_of_getElem? hA, bind_ok, wr_ok this]
    rfl
  · intro k hk A hA
    have := (List.getElem?_eq_some_iff.1 hA).1
    rw [wr_ok this]
    rfl

/-- What `ifs_tpfa_construct_matrix` builds. -/
structure Pattern (G : GridTopo) (W : Option Wells.W) (A : Csr) : Prop where
  m : A.m = G.nc + numWells W
  mat : MatOk A
  elm : ∀ p ∈ allItems G W, HasElm A p.1 p.2
  row : ∀ r, r < A.m → (block A.ja A.ia r).Perm (((allItems G W).filter (fun p => p.1 = r)).map Prod.snd)
  sorted : ∀ r, r < A.m → (block A.ja A.ia r).Pairwise (· ≤ ·)

theorem constructMatrix_ok (junk : Nat → Nat) {G : GridTopo} (hv : G.Valid) (hnc : 0 < G.nc) {W : Option Wells.W} (hW : ∀ W', W = some W' → WellsOk G W') :
    ∃ A, constructMatrix junk G W = .ok A ∧ Pattern G W A := by
  have hm : 0 < G.nc + numWells W := by omega
  have hlt := allItems_lt hv hW
  have hne : allItems G W ≠ [] := by
    unfold allItems
    obtain ⟨n, hn⟩ : ∃ n, G.nc + numWells W = n + 1 := ⟨G.nc + numWells W - 1, by omega⟩
    rw [hn, List.range_succ]
    simp
  obtain ⟨A, eA, hAm, hAn, hAj, hAi, hA0, hAe, hAmono, hArow⟩ := csr_construction junk (G.nc + numWells W) ((allItems G W).map Prod.fst) (allItems G W) hm hne
    (List.Perm.refl _) (fun p hp => (hlt p hp).1)
  have hmem : ∀ r : Nat, r < G.nc + numWells W → ∀ j, j ∈ block A.ja A.ia r ↔ (r, j) ∈ allItems G W := by
    intro r hr j
    rw [hArow r hr, List.mem_map]
    constructor
    · rintro ⟨p, hp, rfl⟩
      rw [List.mem_filter] at hp
      obtain ⟨h1, h2⟩ := hp
      have h3 : p.1 = r := of_decide_eq_true h2
      rw [← h3]
      exact h1
    · intro h
      exact ⟨(r, j), List.mem_filter.2 ⟨h, by simp⟩, rfl⟩
  have hcsr0 : CSR (G.nc + numWells W) (exists_bound A.ja).choose A.ia A.ja :=
    { len := hAi, mono := hAmono, bound := fun a ha => by rw [hAe] at ha; cases ha; omega
      range := fun a e w _ _ hw => (exists_bound A.ja).choose_spec w (List.mem_of_getElem? hw) }
  obtain ⟨ja', eja, hl, hsort, _⟩ := sortrows_sorts _ _ A.ia A.ja hcsr0
  obtain ⟨ja'', eja', hidx⟩ := sortrows_then_elm_index _ _ A.ia A.ja hcsr0
  rw [eja] at eja'
  cases eja'
  have hpos : RowPos (G.nc + numWells W) A.ia := ⟨by omega, hA0, fun c a b _ => hAmono c a b⟩
  refine ⟨{ A with ja := ja' }, ?_, ?_, ?_, ?_, ?_, ?_⟩
  · unfold build at eA
    unfold constructMatrix
    simp only
    obtain ⟨B0, e0, eA⟩ := bind_eq_ok.1 eA
    have e0' : B0 = { m := G.nc + numWells W, nnz := 0, ia := List.replicate (G.nc + numWells W + 1) 0, ja := [] } := by
      unfold newCountNnz at e0
      rw [check_ok (by simpa using hm), bind_ok] at e0
      cases e0; rfl
    rw [e0, bind_ok, e0', selfCount_ok]
    obtain ⟨B1, e1, eA⟩ := bind_eq_ok.1 eA
    rw [List.foldlM_map, e0'] at e1
    unfold allItems at e1
    rw [List.foldlM_append] at e1
    obtain ⟨B1', e1', e1''⟩ := bind_eq_ok.1 e1
    rw [e1', bind_ok, otherConns_ok hv hW, e1'', bind_ok]
    obtain ⟨B2, e2, eA⟩ := bind_eq_ok.1 eA
    rw [e2, bind_ok]
    unfold allItems at eA
    rw [List.foldlM_append] at eA
    obtain ⟨B3, e3, eA⟩ := bind_eq_ok.1 eA
    rw [List.foldlM_map] at e3
    have h3 := loop_flatMap (n := G.nc + numWells W) (f := fun i A => pushElm A i i) (fun A i => pushElm A i i) (fun i => [i])
      (by intro i s _; simp only [List.foldlM_cons, List.foldlM_nil]; cases pushElm s i i <;> rfl) B2
    have e : (List.range (G.nc + numWells W)).flatMap (fun i => [i]) = List.range (G.nc + numWells W) := by simp
    rw [e, e3] at h3
    rw [h3, bind_ok, otherConns_ok hv hW, eA, bind_ok, rd_of_getElem? hAe, bind_ok, check_ok (by simp [hAn]), bind_ok, hAm, eja]
    rfl
  · exact hAm
  · refine ⟨by simpa [hAm] using hpos, by simp [hAi, hAm], ?_, by simp [hl, hAj, hAn]⟩
    simp only [hAm, hAn]
    exact getD_of_getElem? hAe
  · intro p hp
    obtain ⟨h1, h2⟩ := hlt p hp
    obtain ⟨k, ek, ⟨a, b, ha, hb, h3, h4⟩, hj⟩ := hidx p.1 p.2 h1 ((hmem p.1 h1 p.2).2 hp)
    refine ⟨k, by simpa [hAm] using h1, ek, ?_, ?_, getD_of_getElem? hj⟩
    · simp only [getD_of_getElem? ha]; exact h3
    · simp only [getD_of_getElem? hb]; exact h4
  · intro r hr
    have hr' : r < G.nc + numWells W := by simpa [hAm] using hr
    have := (hsort r hr').1
    rw [hArow r hr'] at this
    exact this
  · intro r hr
    exact (hsort r (by simpa [hAm] using hr)).2

theorem Pattern.diag {G : GridTopo} {W : Option Wells.W} {A : Csr} (h : Pattern G W A) {i : Nat} (hi : i < A.m) : HasElm A i i :=
  h.elm (i, i) (List.mem_append_left _ (List.mem_map.2 ⟨i, List.mem_range.2 (by rw [← h.m]; exact hi), rfl⟩))

theorem Pattern.adj {G : GridTopo} {W : Option Wells.W} {A : Csr} (h : Pattern G W A) (hv : G.Valid) {f a b : Nat} (hs : G.Sides f a b) :
    HasElm A a b ∧ HasElm A b a := by
  have hmem : ∀ p ∈ faceItems G f, p ∈ allItems G W := by
    intro p hp
    exact List.mem_append_right _ (List.mem_append_left _ (List.mem_flatMap.2 ⟨f, List.mem_range.2 (hs.lt hv), hp⟩))
  rw [faceItems_of hs] at hmem
  exact ⟨h.elm _ (hmem (a, b) (by simp)), h.elm _ (hmem (b, a) (by simp))⟩

theorem Pattern.perf {G : GridTopo} {W : Wells.W} {A : Csr} (h : Pattern G (some W) A) (hW : WellsOk G W) {w i c : Nat} (hw : w < W.nw) (hp : IsPerf W w i c) :
    HasElm A c (G.nc + w) ∧ HasElm A (G.nc + w) c := by
  have hmem : ∀ p ∈ wellItems G.nc W, p ∈ allItems G (some W) := by
    intro p hp
    exact List.mem_append_right _ (List.mem_append_right _ hp)
  exact ⟨h.elm _ (hmem _ ((mem_wellItems hW).2 ⟨w, i, c, hp, hw, Or.inl rfl⟩)), h.elm _ (hmem _ ((mem_wellItems hW).2 ⟨w, i, c, hp, hw, Or.inr rfl⟩))⟩

end IfsTpfa
end Opm
