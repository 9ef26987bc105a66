import Verif.Proofs.HorizontalFaces
/-!
# The compressed numbering of cells
-/

namespace Opm.Cpg
open Opm UniquePoints

section
variable {nc : Nat} {P : Nat → Prop} [DecidablePred P]

/-- Cells `c` with `P c` get consecutive numbers. -/
theorem numberCells_ok {loc glob : List Int} (hl : loc.length = nc) (hg : glob.length = nc) (hv : ∀ c, c < nc → ∃ v, loc[c]? = some v ∧ (v = -1 ↔ ¬ P c)) :
    ∃ g l, numberCells nc loc glob = .ok (g, l, (List.range nc).countP (fun c => decide (P c))) ∧ g.length = nc ∧ l.length = nc ∧
      g.take ((List.range nc).countP (fun c => decide (P c))) = ((List.range nc).filter (fun c => decide (P c))).map (fun c : Nat => (c : Int)) ∧
      ∀ c, c < nc → l[c]? = some (if P c then ((List.range c).countP (fun c => decide (P c)) : Int) else -1) := by
  obtain ⟨⟨g, l, m⟩, e, hm, h⟩ := loop_inv (n := nc) (s := (glob, loc, 0))
    (f := fun i (s : List Int × List Int × Nat) => do
      let v ← rd s.2.1 i
      if v ≠ -1 then do
        let g ← wr s.1 s.2.2 (i : Int)
        let l ← wr s.2.1 i (s.2.2 : Int)
        .ok (g, l, s.2.2 + 1)
      else .ok s)
    (fun i (s : List Int × List Int × Nat) => s.2.2 = (List.range i).countP (fun c => decide (P c)) ∧ s.1.length = nc ∧ s.2.1.length = nc ∧
      s.1.take s.2.2 = ((List.range i).filter (fun c => decide (P c))).map (fun c : Nat => (c : Int)) ∧
      (∀ c, c < i → s.2.1[c]? = some (if P c then ((List.range c).countP (fun c => decide (P c)) : Int) else -1)) ∧ ∀ c, i ≤ c → s.2.1[c]? = loc[c]?)
    ⟨rfl, hg, hl, rfl, by intro c hc; omega, fun c _ => rfl⟩ (by
      rintro i ⟨g, l, m⟩ hi ⟨h1, h2, h3, h4, h5, h6⟩
      simp only at h1 h2 h3 h4 h5 h6 ⊢
      obtain ⟨v, hv1, hv2⟩ := hv i hi
      have hm : m ≤ i := by rw [h1]; refine le_trans List.countP_le_length ?_; simp
      rw [rd_of_getElem? (show l[i]? = some v by rw [h6 i (Nat.le_refl _)]; exact hv1), bind_ok]
      by_cases hp : P i
      · have hne : v ≠ -1 := fun e => (hv2.1 e) hp
        rw [if_pos hne, wr_ok (by omega), bind_ok, wr_ok (by omega), bind_ok]
        refine ⟨_, rfl, ?_, by rw [List.length_set]; exact h2, by rw [List.length_set]; exact h3, ?_, ?_, ?_⟩
        · rw [List.range_succ, List.countP_append, ← h1]; simp [hp]
        · rw [List.take_succ_eq_append_getElem (by rw [List.length_set]; omega), List.take_set_of_le (Nat.le_refl _), h4, List.range_succ, List.filter_append, List.map_append]
          simp [hp]
        · intro c hc
          rw [getElem?_set_if (by omega)]
          split
          · rename_i e; subst e; rw [if_pos hp, h1]
          · exact h5 c (by omega)
        · intro c hc
          rw [getElem?_set_if (by omega), if_neg (by omega)]
          exact h6 c (by omega)
      · have he : v = -1 := hv2.2 hp
        rw [if_neg (by simpa using he)]
        refine ⟨_, rfl, ?_, h2, h3, ?_, ?_, fun c hc => h6 c (by omega)⟩
        · simp only; rw [List.range_succ, List.countP_append, ← h1]; simp [hp]
        · simp only; rw [h4, List.range_succ, List.filter_append]; simp [hp]
        · intro c hc
          rcases Nat.lt_or_ge c i with hlt | hge
          · exact h5 c hlt
          · obtain rfl : c = i := by omega
            simp only
            rw [h6 c (Nat.le_refl _), hv1, if_neg hp, he])
  simp only at h hm
  refine ⟨g, l, ?_, h.1, h.2.1, ?_, h.2.2.2.1⟩
  · unfold numberCells; rw [e, hm]
  · rw [← hm]; exact h.2.2.1

theorem remap_ok {loc nbr : List Int} {cnt : Nat} (hl : loc.length = nc) (hc : cnt ≤ nbr.length)
    (hv : ∀ t, t < cnt → ∃ v, nbr[t]? = some v ∧ (v = -1 ∨ (0 ≤ v ∧ v < nc))) :
    ∃ b, remapNeighbors cnt loc nbr = .ok b ∧ b.length = nbr.length ∧ b.take cnt = (nbr.take cnt).map (fun v => if v = -1 then -1 else loc.getD v.toNat 0) := by
  obtain ⟨b, e, h1, h2, h3⟩ := loop_inv (n := cnt) (s := nbr)
    (f := fun i (b : List Int) => do
      let v ← rd b i
      if v ≠ -1 then do
        let w ← rdI loc v
        wr b i w
      else .ok b)
    (fun i (b : List Int) => b.length = nbr.length ∧ b.take i = (nbr.take i).map (fun v => if v = -1 then -1 else loc.getD v.toNat 0) ∧ ∀ t, i ≤ t → b[t]? = nbr[t]?)
    ⟨rfl, by simp, fun _ _ => rfl⟩ (by
      rintro i b hi ⟨h1, h2, h3⟩
      obtain ⟨v, hv1, hv2⟩ := hv i hi
      have hbv : b[i]? = some v := by rw [h3 i (Nat.le_refl _)]; exact hv1
      have hnv : (nbr.take (i + 1)) = nbr.take i ++ [v] := by
        rw [List.take_add_one, hv1]; rfl
      rw [rd_of_getElem? hbv, bind_ok, hnv]
      by_cases hne : v = -1
      · rw [if_neg (by simpa using hne)]
        refine ⟨_, rfl, h1, ?_, fun t ht => h3 t (by omega)⟩
        rw [List.take_add_one, hbv, h2, List.map_append]
        simp [hne]
      · rw [if_pos hne]
        have hlt : v.toNat < loc.length := by omega
        rw [rdI_of_getElem? (n := v.toNat) (by omega) (List.getElem?_eq_getElem hlt), bind_ok, wr_ok (by omega)]
        refine ⟨_, rfl, by rw [List.length_set]; exact h1, ?_, ?_⟩
        · rw [List.take_succ_eq_append_getElem (by rw [List.length_set]; omega), List.take_set_of_le (Nat.le_refl _), h2, List.map_append]
          simp [hne, hlt]
        · intro t ht
          rw [getElem?_set_if (by omega), if_neg (by omega)]
          exact h3 t (by omega))
  exact ⟨b, e, h1, h2⟩

theorem idxOf_filter_range {c : Nat} (hc : c < nc) (hp : P c) : ((List.range nc).filter (fun c => decide (P c))).idxOf c = (List.range c).countP (fun c => decide (P c)) := by
  obtain ⟨d, rfl⟩ : ∃ d, nc = c + 1 + d := ⟨nc - (c + 1), by omega⟩
  rw [List.range_add, List.range_succ, List.filter_append, List.filter_append]
  have : c ∉ (List.range c).filter (fun c => decide (P c)) := by simp
  simp only [List.filter_cons, hp, decide_true, if_true, List.filter_nil]
  rw [List.append_assoc, List.idxOf_append_of_notMem this]
  simp [List.countP_eq_length_filter]

end

section
variable {nx ny nz np : Nat} {plist : List Int} {col : Nat → Nat → Nat → Int} {act : Nat → Nat → Nat → Prop} {start : Nat → Nat}

/-- A face whose neighbours are cells that are not collapsed, or `-1`. -/
def GoodFace (nx ny nz : Nat) (col : Nat → Nat → Nat → Int) (f : Face) : Prop :=
  (f.a = -1 ∨ ∃ c : Nat, f.a = c ∧ c < nx * ny * nz ∧ Solid nx ny col c) ∧ (f.b = -1 ∨ ∃ c : Nat, f.b = c ∧ c < nx * ny * nz ∧ Solid nx ny col c)

/-- The faces are renumbered. -/
theorem renumber_ok {fs : List Face} (hf : ∀ f ∈ fs, GoodFace nx ny nz col f) {loc nbr : List Int} (hl : loc.length = nx * ny * nz) (hlen : 2 * fs.length ≤ nbr.length)
    (hn : nbr.take (2 * fs.length) = faceNbrs fs)
    (hloc : ∀ c, c < nx * ny * nz → loc[c]? = some (if Solid nx ny col c then ((List.range c).countP (fun c => decide (Solid nx ny col c)) : Int) else -1)) :
    ∃ b, remapNeighbors (2 * fs.length) loc nbr = .ok b ∧ b.length = nbr.length ∧
      b.take (2 * fs.length) = faceNbrs (fs.map (Face.renumber (solidCells nx ny nz col))) := by
  have hmem : ∀ v ∈ faceNbrs fs, v = -1 ∨ ∃ c : Nat, v = c ∧ c < nx * ny * nz ∧ Solid nx ny col c := by
    intro v hv
    unfold faceNbrs at hv
    obtain ⟨f, hfm, hv⟩ := List.mem_flatMap.1 hv
    have := hf f hfm
    simp only [List.mem_cons, List.not_mem_nil, or_false] at hv
    rcases hv with rfl | rfl
    · exact this.1
    · exact this.2
  obtain ⟨b, e, h1, h2⟩ := remap_ok (nc := nx * ny * nz) (loc := loc) (nbr := nbr) (cnt := 2 * fs.length) hl hlen (by
    intro t ht
    have hlt : t < (faceNbrs fs).length := by rw [length_faceNbrs]; exact ht
    refine ⟨(faceNbrs fs)[t], ?_, ?_⟩
    · rw [← List.getElem?_eq_getElem hlt, ← hn, List.getElem?_take_of_lt ht]
    · rcases hmem _ (List.getElem_mem hlt) with h | ⟨c, h, hc, _⟩
      · exact Or.inl h
      · right; rw [h]; omega)
  refine ⟨b, e, h1, ?_⟩
  rw [h2, hn]
  have : (faceNbrs fs).map (fun v => if v = -1 then -1 else loc.getD v.toNat 0) = (faceNbrs fs).map (compressed (solidCells nx ny nz col)) := by
    apply List.map_congr_left
    intro v hv
    unfold compressed
    rcases hmem v hv with h | ⟨c, rfl, hc, hs⟩
    · rw [if_pos h, if_pos h]
    · rw [if_neg (by omega), if_neg (by omega), Int.toNat_natCast, List.getD_eq_getElem?_getD, hloc c hc, if_pos hs]
      unfold solidCells
      rw [idxOf_filter_range hc hs]
      rfl
  rw [this]
  unfold faceNbrs
  rw [List.map_flatMap, List.flatMap_map]
  rfl

/-- Neighbours of horizontal faces. -/
theorem topFaces_good {ps : List (Nat × Nat)} {fs : List Face} (h : TopFaces nx ny nz col ps fs) (hp : ∀ c ∈ ps, c.1 < nx ∧ c.2 < ny) : ∀ f ∈ fs, GoodFace nx ny nz col f := by
  induction h with
  | nil => intro f hf; cases hf
  | @snoc ps fs i j gs _ hs ih =>
    intro f hf
    rcases List.mem_append.1 hf with hf | hf
    · exact ih (fun c hc => hp c (List.mem_append_left _ hc)) f hf
    · obtain ⟨qs, _, hm, rfl⟩ := hs
      obtain ⟨⟨L, K⟩, hx, rfl⟩ := List.mem_map.1 hf
      obtain ⟨h1, h2, _⟩ := (hm L K).1 hx
      obtain ⟨hi, hj⟩ := hp (i, j) (by simp)
      have one : ∀ M, M ≤ 2 * nz → ¬ Collapsed col i j M →
          layerCell nx ny i j M = -1 ∨ ∃ c : Nat, layerCell nx ny i j M = c ∧ c < nx * ny * nz ∧ Solid nx ny col c := by
        intro M hM hc
        unfold layerCell
        by_cases hcell : IsCell M
        · right
          have ho : M % 2 = 1 := hcell
          refine ⟨_, if_pos hcell, cartesian_lt hi hj (by omega), ?_⟩
          rw [solid_cartesian hi hj, show 2 * (M / 2) + 1 = M by omega]
          exact hc
        · left; rw [if_neg hcell]
      exact ⟨one L (by have := h2.1; omega) h2.2.1, one K h1 h2.2.2.1⟩

/-- A layer between two columns of corners of a cell column is empty if the layer is collapsed. -/
theorem side_empty {dir s i j K : Nat} (hs : s < 2) (h : Collapsed col i j K) : (sideStack col dir s i j).Empty K := by
  unfold Collapsed level at h
  simp only [List.cons.injEq, and_true] at h
  obtain ⟨h1, h2, h3, h4⟩ := h
  have hs' : s = 0 ∨ s = 1 := by omega
  unfold sideStack Stack.Empty
  rcases hs' with rfl | rfl <;> split <;> simp_all

/-- Neighbours of faces between cell columns. -/
theorem sideFaces_good (h : Columns nx ny nz np plist col act start) (hx : 0 < nx) (hy : 0 < ny) {ps : List (Nat × Nat × Nat)} {fs : List Face} {ts : List Nat}
    {qs : List (List Int)} (hsf : SideFaces nx ny nz np col ps fs ts qs) (hp : ∀ c ∈ ps, IsPair nx ny c.1 c.2.1 c.2.2) : ∀ f ∈ fs, GoodFace nx ny nz col f := by
  induction hsf with
  | nil => intro f hf; cases hf
  | @snoc ps fs ts qs dir i j gs xs _ hc ih =>
    intro f hf
    rcases List.mem_append.1 hf with hf | hf
    · exact ih (fun c hc => hp c (List.mem_append_left _ hc)) f hf
    · have hpair : IsPair nx ny dir i j := hp (dir, i, j) (by simp)
      obtain ⟨g, hg, rfl⟩ := List.mem_map.1 hf
      obtain ⟨x, pairs, _, hm, hfo, _⟩ := hc.faces
      have hd := deeper_cast
      obtain ⟨⟨K, L⟩, hkl, ha, hb, _⟩ := forall₂_mem hfo hg
      obtain ⟨hK, hL, _, hov⟩ := (hm _ _ hd hd K L).1 hkl
      rw [overlap_iff (ordered (h.lowOk hx hy hpair) (h.highOk hx hy hpair) hK hL) hd hd] at hov
      have one : ∀ (M : Nat) (c : Option (Nat × Nat)), M < 2 * nz + 2 - 1 → (∀ a b, c = some (a, b) → a < nx ∧ b < ny ∧ ¬ Collapsed col a b M) →
          cellIn nx ny c (cellNumber M) = -1 ∨ ∃ d : Nat, cellIn nx ny c (cellNumber M) = d ∧ d < nx * ny * nz ∧ Solid nx ny col d := by
        intro M c hM hc
        cases c with
        | none => exact Or.inl rfl
        | some ab =>
          obtain ⟨a, b⟩ := ab
          obtain ⟨h1, h2, h3⟩ := hc a b rfl
          unfold cellIn cellNumber
          by_cases hcell : IsCell M
          · right
            have ho : M % 2 = 1 := hcell
            refine ⟨cartesian nx ny a b (M / 2), ?_, cartesian_lt h1 h2 (by omega), ?_⟩
            · simp only
              rw [if_pos hcell, if_neg (by omega)]
              unfold cartesian
              push_cast
              rfl
            · rw [solid_cartesian h1 h2, show 2 * (M / 2) + 1 = M by omega]
              exact h3
          · left
            simp only
            rw [if_neg hcell, if_pos rfl]
      constructor
      · show cellIn nx ny (lowCol dir i j) g.a = -1 ∨ _
        unfold Face.glob
        simp only
        rw [ha]
        apply one K _ hK
        intro a b e
        obtain ⟨h1, h2⟩ := lowCol_lt hpair e
        refine ⟨h1, h2, ?_⟩
        intro hcol
        apply hov.1
        unfold lowStack
        rw [e]
        exact side_empty (by omega) hcol
      · unfold Face.glob
        simp only
        rw [hb]
        apply one L _ hL
        intro a b e
        obtain ⟨h1, h2, _⟩ := highCol_lt e
        refine ⟨h1, h2, ?_⟩
        intro hcol
        apply hov.2.1
        unfold highStack
        rw [e]
        exact side_empty (by omega) hcol

end

end Opm.Cpg
