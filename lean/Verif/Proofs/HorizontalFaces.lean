import Verif.Proofs.Columns
/-!
# Horizontal faces
-/

namespace Opm.Cpg
open Opm UniquePoints

section
variable {nx ny nz np : Nat} {plist : List Int} {col : Nat → Nat → Nat → Int} {act : Nat → Nat → Nat → Prop} {start : Nat → Nat}

/-- The last layer up to `K` that is not collapsed. -/
def lastLayer (col : Nat → Nat → Nat → Int) (i j : Nat) : Nat → Option Nat
  | 0 => if Collapsed col i j 0 then none else some 0
  | K + 1 => if Collapsed col i j (K + 1) then lastLayer col i j K else some (K + 1)

theorem lastLayer_none {i j : Nat} : ∀ {K : Nat}, lastLayer col i j K = none ↔ ∀ M, M ≤ K → Collapsed col i j M
  | 0 => by
    unfold lastLayer
    constructor
    · intro h M hM
      obtain rfl : M = 0 := by omega
      by_contra hc
      rw [if_neg hc] at h
      cases h
    · intro h
      rw [if_pos (h 0 (Nat.le_refl _))]
  | K + 1 => by
    unfold lastLayer
    constructor
    · intro h M hM
      by_cases hc : Collapsed col i j (K + 1)
      · rw [if_pos hc] at h
        rcases Nat.lt_or_ge M (K + 1) with hl | hl
        · exact lastLayer_none.1 h M (by omega)
        · obtain rfl : M = K + 1 := by omega
          exact hc
      · rw [if_neg hc] at h; cases h
    · intro h
      rw [if_pos (h _ (Nat.le_refl _))]
      exact lastLayer_none.2 (fun M hM => h M (by omega))

theorem lastLayer_some {i j L : Nat} : ∀ {K : Nat}, lastLayer col i j K = some L ↔ L ≤ K ∧ ¬ Collapsed col i j L ∧ ∀ M, L < M → M ≤ K → Collapsed col i j M
  | 0 => by
    unfold lastLayer
    constructor
    · intro h
      split at h
      · cases h
      · rename_i hc
        obtain rfl := Option.some.inj h
        exact ⟨Nat.le_refl _, hc, by intro M; omega⟩
    · rintro ⟨h1, h2, _⟩
      obtain rfl : L = 0 := by omega
      rw [if_neg h2]
  | K + 1 => by
    unfold lastLayer
    constructor
    · intro h
      split at h
      · rename_i hc
        obtain ⟨h1, h2, h3⟩ := lastLayer_some.1 h
        refine ⟨by omega, h2, ?_⟩
        intro M hM hM'
        rcases Nat.lt_or_ge M (K + 1) with hl | hl
        · exact h3 M hM (by omega)
        · obtain rfl : M = K + 1 := by omega
          exact hc
      · rename_i hc
        obtain rfl := Option.some.inj h
        exact ⟨Nat.le_refl _, hc, by intro M; omega⟩
    · rintro ⟨h1, h2, h3⟩
      by_cases hc : Collapsed col i j (K + 1)
      · rw [if_pos hc]
        have : L ≠ K + 1 := by rintro rfl; exact h2 hc
        exact lastLayer_some.2 ⟨by omega, h2, fun M hM hM' => h3 M hM (by omega)⟩
      · rw [if_neg hc]
        congr 1
        by_contra hne
        exact hc (h3 (K + 1) (by omega) (Nat.le_refl _))

theorem directly_iff {i j L K : Nat} : DirectlyAbove col i j L (K + 1) ↔ lastLayer col i j K = some L ∧ ¬ Collapsed col i j (K + 1) := by
  unfold DirectlyAbove
  rw [lastLayer_some]
  constructor
  · rintro ⟨h1, h2, h3, h4⟩
    exact ⟨⟨by omega, h2, fun M hM hM' => h4 M hM (by omega)⟩, h3⟩
  · rintro ⟨⟨h1, h2, h3⟩, h4⟩
    exact ⟨by omega, h2, h4, fun M hM hM' => h3 M hM (by omega)⟩

/-- The pairs of layers up to `K` between which there is a face. -/
def layerPairs (col : Nat → Nat → Nat → Int) (i j : Nat) : Nat → List (Nat × Nat)
  | 0 => []
  | K + 1 => layerPairs col i j K ++ (if Collapsed col i j (K + 1) then [] else
      match lastLayer col i j K with
      | some L => if IsCell L ∨ IsCell (K + 1) then [(L, K + 1)] else []
      | none => [])

theorem mem_layerPairs {i j L k : Nat} : ∀ {K : Nat}, (L, k) ∈ layerPairs col i j K ↔ k ≤ K ∧ DirectlyAbove col i j L k ∧ (IsCell L ∨ IsCell k)
  | 0 => by
    constructor
    · intro h; cases h
    · rintro ⟨h1, h2, _⟩
      have := h2.1
      omega
  | K + 1 => by
    unfold layerPairs
    rw [List.mem_append, mem_layerPairs]
    constructor
    · rintro (⟨h1, h2⟩ | h)
      · exact ⟨by omega, h2⟩
      · split at h
        · cases h
        · rename_i hc
          split at h
          · rename_i L' hL
            split at h
            · rename_i hcell
              rw [List.mem_singleton] at h
              cases h
              exact ⟨Nat.le_refl _, directly_iff.2 ⟨hL, hc⟩, hcell⟩
            · cases h
          · cases h
    · rintro ⟨h1, h2, h3⟩
      rcases Nat.lt_or_ge k (K + 1) with hl | hl
      · exact Or.inl ⟨by omega, h2, h3⟩
      · obtain rfl : k = K + 1 := by omega
        right
        obtain ⟨e1, e2⟩ := directly_iff.1 h2
        rw [if_neg e2, e1]
        simp only
        rw [if_pos h3]
        exact List.mem_singleton.2 rfl

theorem layerPairs_sorted {i j : Nat} : ∀ K : Nat, (layerPairs col i j K).Pairwise (fun x y => x.2 < y.2)
  | 0 => List.Pairwise.nil
  | K + 1 => by
    unfold layerPairs
    rw [List.pairwise_append]
    refine ⟨layerPairs_sorted K, ?_, ?_⟩
    · split
      · exact List.Pairwise.nil
      · split
        · split
          · exact List.pairwise_singleton _ _
          · exact List.Pairwise.nil
        · exact List.Pairwise.nil
    · rintro ⟨L, k⟩ hx y hy
      have := (mem_layerPairs.1 hx).1
      split at hy
      · cases hy
      · split at hy
        · split at hy
          · rw [List.mem_singleton] at hy
            subst hy
            simp only
            omega
          · cases hy
        · cases hy

theorem length_layerPairs {i j : Nat} : ∀ K : Nat, (layerPairs col i j K).length ≤ K
  | 0 => Nat.le_refl _
  | K + 1 => by
    unfold layerPairs
    rw [List.length_append]
    have := length_layerPairs (i := i) (j := j) K
    have h1 : (if Collapsed col i j (K + 1) then [] else
      match lastLayer col i j K with
      | some L => if IsCell L ∨ IsCell (K + 1) then [(L, K + 1)] else []
      | none => []).length ≤ 1 := by
      split
      · simp
      · split
        · split <;> simp
        · simp
    omega

/-- A cell that is not collapsed has a layer directly above it. -/
theorem Columns.lastOf (h : Columns nx ny nz np plist col act start) {i j k : Nat} (hi : i < nx) (hj : j < ny) (hk : k < nz) (hc : ¬ Collapsed col i j (2 * k + 1)) :
    lastLayer col i j (2 * k) ≠ none := by
  intro hn
  rw [lastLayer_none] at hn
  have hact : act i j k := by
    by_contra ha
    apply hc
    unfold Collapsed level
    have e : ∀ X Y, X / 2 = i → Y / 2 = j → X < 2 * nx → Y < 2 * ny → col X Y (2 * k + 1) = col X Y (2 * k + 1 + 1) := by
      intro X Y eX eY hX hY
      exact h.inactive X Y k hX hY hk (by rw [eX, eY]; exact ha)
    rw [e (2 * i) (2 * j) (by omega) (by omega) (by omega) (by omega), e (2 * i) (2 * j + 1) (by omega) (by omega) (by omega) (by omega),
      e (2 * i + 1) (2 * j) (by omega) (by omega) (by omega) (by omega), e (2 * i + 1) (2 * j + 1) (by omega) (by omega) (by omega) (by omega)]
  have hlt := (h.active (2 * i) (2 * j) k (by omega) (by omega) hk (by rw [show 2 * i / 2 = i by omega, show 2 * j / 2 = j by omega]; exact hact)).1
  have : ∀ M, M ≤ 2 * k + 1 → col (2 * i) (2 * j) M = intMin := by
    intro M
    induction M with
    | zero => intro _; exact h.top _ _ (by omega) (by omega)
    | succ M ih =>
      intro hM
      have h1 := hn M (by omega)
      unfold Collapsed level at h1
      rw [List.cons.injEq] at h1
      rw [← h1.1]
      exact ih (by omega)
  rw [this _ (Nat.le_refl _)] at hlt
  exact lt_irrefl _ hlt

/-- State of the loop over one stack: `fs` are the faces so far, `ts` their tags. -/
structure HRep (g : PGrid) (s : Horiz) (fs : List Face) (ts : List Nat) : Prop where
  f : s.f.Rep g.n (faceNodes fs)
  c : s.c.Rep g.nbr.length (faceNbrs fs)
  plen : s.ptr.length = g.m + 1
  ptr : s.ptr.take (fs.length + 1) = facePtr fs
  tlen : s.tag.length = g.m
  tag : s.tag.take fs.length = ts
  nf : s.nf = fs.length

theorem horizFace_ok {g : PGrid} {s : Horiz} {fs : List Face} {ts : List Nat} (h : HRep g s fs ts) {nodes : List Int} {a b : Int} (h1 : fs.length < g.m)
    (h2 : (faceNodes fs).length + nodes.length ≤ g.n) (h3 : 2 * g.m ≤ g.nbr.length) :
    ∃ s', s.addFace nodes a b = .ok s' ∧ HRep g s' (fs ++ [⟨a, b, nodes⟩]) (ts ++ [2]) ∧ s'.cell = s.cell ∧ s'.cellno = s.cellno ∧ s'.prev = b := by
  obtain ⟨f, e1, r1⟩ := Cur.puts_rep nodes h.f h2
  obtain ⟨c, e2, r2⟩ := Cur.puts_rep [a, b] h.c (by rw [length_faceNbrs]; simp; omega)
  have hpos : f.pos = (faceNodes fs).length + nodes.length := by rw [r1.1, List.length_append]
  have htl := h.tlen
  have hpl := h.plen
  unfold Horiz.addFace
  rw [e1, bind_ok, h.nf, wr_ok (by omega), bind_ok, wr_ok (by omega), bind_ok, e2, bind_ok]
  refine ⟨_, rfl, ⟨?_, ?_, ?_, ?_, ?_, ?_, ?_⟩, rfl, rfl, rfl⟩
  · rw [faceNodes_append]
    simpa [faceNodes] using r1
  · unfold faceNbrs
    rw [List.flatMap_append]
    simpa [faceNbrs] using r2
  · simp only [List.length_set]; exact hpl
  · simp only
    rw [List.length_append, List.length_singleton, List.take_succ_eq_append_getElem (by rw [List.length_set]; omega), List.take_set_of_le (Nat.le_refl _), h.ptr,
      facePtr_append, ← hpos]
    simp
  · simp only [List.length_set]; exact htl
  · simp only
    rw [List.length_append, List.length_singleton, List.take_succ_eq_append_getElem (by rw [List.length_set]; omega), List.take_set_of_le (Nat.le_refl _), h.tag]
    simp
  · simp

/-- The faces up to line `K`. -/
def levelFaces (nx ny : Nat) (col : Nat → Nat → Nat → Int) (i j K : Nat) : List Face :=
  (layerPairs col i j K).map (fun x => ⟨layerCell nx ny i j x.1, layerCell nx ny i j x.2, ring col i j x.2⟩)

/-- The cell of the last layer. -/
def lastCell (nx ny : Nat) (col : Nat → Nat → Nat → Int) (i j K : Nat) : Int :=
  match lastLayer col i j K with
  | some L => layerCell nx ny i j L
  | none => -1

/-- State of the loop after lines `1, …, K`. -/
structure HInv (nx ny nz : Nat) (col : Nat → Nat → Nat → Int) (g : PGrid) (fs : List Face) (ts : List Nat) (cell : List Int) (cellno i j K : Nat) (s : Horiz) : Prop where
  rep : HRep g s (fs ++ levelFaces nx ny col i j K) (ts ++ List.replicate (levelFaces nx ny col i j K).length 2)
  prev : s.prev = lastCell nx ny col i j K
  clen : s.cell.length = nx * ny * nz
  done : ∀ k, 2 * k + 1 ≤ K → ∃ v, s.cell[cartesian nx ny i j k]? = some v ∧ -1 ≤ v ∧ (v = -1 ↔ Collapsed col i j (2 * k + 1))
  other : ∀ t, (∀ k, 2 * k + 1 ≤ K → t ≠ cartesian nx ny i j k) → s.cell[t]? = cell[t]?
  no : s.cellno = cellno + (List.range ((K + 1) / 2)).countP (fun k => decide (¬ Collapsed col i j (2 * k + 1)))

theorem cartesian_lt {nx ny nz i j k : Nat} (hi : i < nx) (hj : j < ny) (hk : k < nz) : cartesian nx ny i j k < nx * ny * nz := by
  unfold cartesian
  have h1 : j + ny * k < ny * nz := by
    have := Nat.mul_le_mul_left ny (show k + 1 ≤ nz by omega)
    rw [Nat.mul_add] at this
    omega
  have h2 := Nat.mul_le_mul_left nx (show j + ny * k + 1 ≤ ny * nz by omega)
  rw [Nat.mul_add nx (j + ny * k) 1, ← Nat.mul_assoc nx ny nz] at h2
  omega

theorem cartesian_k_inj {nx ny i j k k' : Nat} (hx : 0 < nx) (hy : 0 < ny) (h : cartesian nx ny i j k = cartesian nx ny i j k') : k = k' := by
  unfold cartesian at h
  have h1 := Nat.eq_of_mul_eq_mul_left hx (Nat.add_left_cancel h)
  exact Nat.eq_of_mul_eq_mul_left hy (Nat.add_left_cancel h1)

theorem cellIndex_ok {nx ny nz i j K : Nat} (hi : i < nx) (hj : j < ny) (hK : K + 1 ≤ 2 * nz) (ho : (K + 1) % 2 = 1) :
    linearindex nx ny nz i j (((K + 1 - 1) / 2 : Nat) : Int) = .ok (cartesian nx ny i j (K / 2) : Int) := by
  rw [linearindex_ok ⟨by omega, by omega⟩ ⟨by omega, by omega⟩ ⟨by omega, by omega⟩]
  unfold cartesian
  rw [Nat.add_sub_cancel]
  push_cast
  rfl

theorem readCorners_ok (h : Columns nx ny nz np plist col act start) {i j K : Nat} (hi : i < nx) (hj : j < ny) (hK : K < 2 * nz + 2) :
    readCorners plist (vectorPositions (2 * nx) (2 * ny) (2 + 2 * nz) (2 * i + 1) (2 * j + 1)) K = .ok (level col i j K) := by
  have pos : ∀ {X Y : Nat} {a b : Int}, a = X → b = Y → ((2 + 2 * nz : Nat) : Int) * (a + ((2 * nx : Nat) : Int) * b) = (((2 + 2 * nz) * (X + 2 * nx * Y) : Nat) : Int) := by
    intro X Y a b ha hb
    rw [ha, hb]; push_cast; ring
  unfold readCorners vectorPositions
  simp only [List.getD_cons_zero, List.getD_cons_succ]
  rw [rd_of_getElem? (h.colAt (X := 2 * i) (Y := 2 * j) (by omega) (by omega) (pos (by omega) (by omega)) K hK), bind_ok,
    rd_of_getElem? (h.colAt (X := 2 * i) (Y := 2 * j + 1) (by omega) (by omega) (pos (by omega) (by omega)) K hK), bind_ok,
    rd_of_getElem? (h.colAt (X := 2 * i + 1) (Y := 2 * j) (by omega) (by omega) (pos (by omega) (by omega)) K hK), bind_ok,
    rd_of_getElem? (h.colAt (X := 2 * i + 1) (Y := 2 * j + 1) (by omega) (by omega) (pos (by omega) (by omega)) K hK), bind_ok]
  rfl

theorem length_levelNodes {i j : Nat} (K : Nat) : (faceNodes (levelFaces nx ny col i j K)).length = 4 * (levelFaces nx ny col i j K).length := by
  unfold faceNodes levelFaces
  rw [List.flatMap_map, List.length_map, length_flatMap_const (d := 4) (fun _ _ => rfl), Nat.mul_comm]

theorem horizStep_ok (h : Columns nx ny nz np plist col act start) {g : PGrid} {fs : List Face} {ts : List Nat} {cell : List Int} {cellno i j K : Nat} {s : Horiz}
    (hi : i < nx) (hj : j < ny) (hK : K + 1 ≤ 2 * nz) (h1 : fs.length + 2 * nz ≤ g.m) (h2 : (faceNodes fs).length + 8 * nz ≤ g.n) (h3 : 2 * g.m ≤ g.nbr.length)
    (hs : HInv nx ny nz col g fs ts cell cellno i j K s) :
    ∃ s', Horiz.step plist (vectorPositions (2 * nx) (2 * ny) (2 + 2 * nz) (2 * i + 1) (2 * j + 1)) nx ny nz i j (K + 1) s = .ok s' ∧
      HInv nx ny nz col g fs ts cell cellno i j (K + 1) s' := by
  have hlen := length_layerPairs (col := col) (i := i) (j := j) K
  have hle : (levelFaces nx ny col i j K).length = (layerPairs col i j K).length := by unfold levelFaces; rw [List.length_map]
  have hx : 0 < nx := by omega
  have hy : 0 < ny := by omega
  -- effect on the cell array
  have upd : ∀ v : Int, -1 ≤ v → (K + 1) % 2 = 1 → (v = -1 ↔ Collapsed col i j (K + 1)) →
      wrI s.cell (cartesian nx ny i j (K / 2) : Int) v = .ok (s.cell.set (cartesian nx ny i j (K / 2)) v) ∧
      (s.cell.set (cartesian nx ny i j (K / 2)) v).length = nx * ny * nz ∧
      (∀ k, 2 * k + 1 ≤ K + 1 → ∃ w, (s.cell.set (cartesian nx ny i j (K / 2)) v)[cartesian nx ny i j k]? = some w ∧ -1 ≤ w ∧ (w = -1 ↔ Collapsed col i j (2 * k + 1))) ∧
      (∀ t, (∀ k, 2 * k + 1 ≤ K + 1 → t ≠ cartesian nx ny i j k) → (s.cell.set (cartesian nx ny i j (K / 2)) v)[t]? = cell[t]?) := by
    intro v hv ho hc
    have hlt : cartesian nx ny i j (K / 2) < s.cell.length := by rw [hs.clen]; exact cartesian_lt hi hj (by omega)
    refine ⟨by rw [wrI_natCast, wr_ok hlt], by rw [List.length_set]; exact hs.clen, ?_, ?_⟩
    · intro k hk
      rw [getElem?_set_if hlt]
      split
      · rename_i e
        obtain rfl := cartesian_k_inj hx hy e
        refine ⟨v, rfl, hv, ?_⟩
        rw [show 2 * (K / 2) + 1 = K + 1 by omega]; exact hc
      · rename_i e
        apply hs.done
        by_contra hgt
        apply e
        rw [show k = K / 2 by omega]
    · intro t ht
      rw [getElem?_set_if hlt, if_neg (ht (K / 2) (by omega))]
      exact hs.other t (fun k hk => ht k (by omega))
  -- the cells are the same at a gap
  have same : (K + 1) % 2 = 0 → (∀ k, 2 * k + 1 ≤ K + 1 → 2 * k + 1 ≤ K) := by intro ho k hk; omega
  have hno : (K + 1) % 2 = 0 → (K + 1 + 1) / 2 = (K + 1) / 2 := by intro ho; omega
  have hno' : (K + 1) % 2 = 1 → (K + 1 + 1) / 2 = (K + 1) / 2 + 1 ∧ 2 * ((K + 1) / 2) + 1 = K + 1 := by intro ho; omega
  unfold Horiz.step
  rw [readCorners_ok h hi hj (by omega), bind_ok, readCorners_ok h hi hj (by omega), bind_ok]
  by_cases hc : Collapsed col i j (K + 1)
  · have el : levelFaces nx ny col i j (K + 1) = levelFaces nx ny col i j K := by
      unfold levelFaces
      rw [layerPairs, if_pos hc, List.append_nil]
    have ec : lastCell nx ny col i j (K + 1) = lastCell nx ny col i j K := by
      unfold lastCell
      rw [lastLayer, if_pos hc]
    rw [if_pos (show level col i j (K + 1) = level col i j (K + 1 + 1) from hc)]
    by_cases ho : (K + 1) % 2 = 1
    · rw [if_pos (by omega), cellIndex_ok hi hj hK ho, bind_ok]
      obtain ⟨u1, u2, u3, u4⟩ := upd (-1) (by omega) ho ⟨fun _ => hc, fun _ => rfl⟩
      rw [u1, bind_ok]
      refine ⟨_, rfl, ?_⟩
      refine ⟨?_, ?_, u2, u3, u4, ?_⟩
      · rw [el]
        exact ⟨hs.rep.f, hs.rep.c, hs.rep.plen, hs.rep.ptr, hs.rep.tlen, hs.rep.tag, hs.rep.nf⟩
      · rw [ec]; exact hs.prev
      · obtain ⟨n1, n2⟩ := hno' ho
        simp only
        rw [hs.no, n1, List.range_succ, List.countP_append]
        simp [n2, hc]
    · rw [if_neg (by omega)]
      refine ⟨_, rfl, ?_⟩
      refine ⟨by rw [el]; exact hs.rep, by rw [ec]; exact hs.prev, hs.clen, fun k hk => hs.done k (same (by omega) k hk), fun t ht => hs.other t (fun k hk => ht k (by omega)), ?_⟩
      rw [hno (by omega)]; exact hs.no
  · have ec : lastCell nx ny col i j (K + 1) = layerCell nx ny i j (K + 1) := by
      unfold lastCell
      rw [lastLayer, if_neg hc]
    rw [if_neg (show ¬ level col i j (K + 1) = level col i j (K + 1 + 1) from hc)]
    have room1 : (fs ++ levelFaces nx ny col i j K).length < g.m := by rw [List.length_append]; omega
    have room2 : (faceNodes (fs ++ levelFaces nx ny col i j K)).length + 4 ≤ g.n := by
      rw [faceNodes_append, List.length_append, length_levelNodes]; omega
    have ring_eq : [(level col i j (K + 1)).getD 0 0, (level col i j (K + 1)).getD 2 0, (level col i j (K + 1)).getD 3 0, (level col i j (K + 1)).getD 1 0] = ring col i j (K + 1) := rfl
    rw [ring_eq]
    have tags : ∀ (a b : Int), levelFaces nx ny col i j (K + 1) = levelFaces nx ny col i j K ++ [⟨a, b, ring col i j (K + 1)⟩] →
        ts ++ List.replicate (levelFaces nx ny col i j K).length 2 ++ [2] = ts ++ List.replicate (levelFaces nx ny col i j (K + 1)).length 2 := by
      intro a b e
      rw [e, List.length_append, List.length_singleton, List.replicate_succ', List.append_assoc]
    by_cases ho : (K + 1) % 2 = 1
    · rw [if_pos (by omega), cellIndex_ok hi hj hK ho, bind_ok]
      obtain ⟨L, hL⟩ : ∃ L, lastLayer col i j K = some L := by
        have := h.lastOf hi hj (k := K / 2) (by omega) (by rw [show 2 * (K / 2) + 1 = K + 1 by omega]; exact hc)
        rw [show 2 * (K / 2) = K by omega] at this
        exact Option.ne_none_iff_exists'.1 this
      have hcell : layerCell nx ny i j (K + 1) = (cartesian nx ny i j (K / 2) : Int) := by
        unfold layerCell
        rw [if_pos (show IsCell (K + 1) from ho), show (K + 1) / 2 = K / 2 by omega]
      have el : levelFaces nx ny col i j (K + 1) = levelFaces nx ny col i j K ++ [⟨s.prev, (cartesian nx ny i j (K / 2) : Int), ring col i j (K + 1)⟩] := by
        unfold levelFaces
        rw [layerPairs, if_neg hc, hL]
        simp only
        rw [if_pos (Or.inr (show IsCell (K + 1) from ho)), List.map_append]
        simp only [List.map_cons, List.map_nil]
        rw [hcell, hs.prev]
        unfold lastCell
        rw [hL]
      obtain ⟨s', e1, r1, c1, n1, p1⟩ := horizFace_ok hs.rep (nodes := ring col i j (K + 1)) (a := s.prev) (b := (cartesian nx ny i j (K / 2) : Int)) room1 room2 h3
      rw [e1, bind_ok]
      obtain ⟨u1, u2, u3, u4⟩ := upd (s'.cellno : Int) (by omega) ho ⟨fun e => by omega, fun e => absurd e hc⟩
      rw [c1, u1, bind_ok]
      refine ⟨_, rfl, ?_⟩
      refine ⟨?_, ?_, u2, u3, u4, ?_⟩
      · rw [tags _ _ el, List.append_assoc, ← el] at r1
        exact ⟨r1.f, r1.c, r1.plen, r1.ptr, r1.tlen, r1.tag, r1.nf⟩
      · simp only; rw [p1, ec, hcell]
      · obtain ⟨m1, m2⟩ := hno' ho
        simp only
        rw [n1, hs.no, m1, List.range_succ, List.countP_append]
        simp [m2, hc]
        omega
    · rw [if_neg (by omega)]
      have hgap : ¬ IsCell (K + 1) := ho
      have hcell : layerCell nx ny i j (K + 1) = -1 := by
        unfold layerCell
        rw [if_neg hgap]
      by_cases hp : s.prev = -1
      · rw [if_neg (by simpa using hp)]
        have el : levelFaces nx ny col i j (K + 1) = levelFaces nx ny col i j K := by
          unfold levelFaces
          rw [layerPairs, if_neg hc]
          have hp' := hs.prev
          rw [hp] at hp'
          unfold lastCell at hp'
          cases hL : lastLayer col i j K with
          | none => simp
          | some L =>
            rw [hL] at hp'
            simp only at hp' ⊢
            have : ¬ IsCell L := by
              intro hcl
              unfold layerCell at hp'
              rw [if_pos hcl] at hp'
              omega
            rw [if_neg (by simp [this, hgap]), List.append_nil]
        refine ⟨_, rfl, ?_⟩
        refine ⟨by rw [el]; exact hs.rep, by rw [ec, hcell]; exact hp, hs.clen, fun k hk => hs.done k (same (by omega) k hk), fun t ht => hs.other t (fun k hk => ht k (by omega)), ?_⟩
        rw [hno (by omega)]; exact hs.no
      · rw [if_pos (by simpa using hp)]
        have el : levelFaces nx ny col i j (K + 1) = levelFaces nx ny col i j K ++ [⟨s.prev, -1, ring col i j (K + 1)⟩] := by
          unfold levelFaces
          rw [layerPairs, if_neg hc]
          have hp' := hs.prev
          unfold lastCell at hp'
          cases hL : lastLayer col i j K with
          | none => rw [hL] at hp'; exact absurd hp' hp
          | some L =>
            rw [hL] at hp'
            simp only at hp' ⊢
            have : IsCell L := by
              by_contra hcl
              unfold layerCell at hp'
              rw [if_neg hcl] at hp'
              exact hp hp'
            rw [if_pos (Or.inl this), List.map_append]
            simp only [List.map_cons, List.map_nil]
            rw [hcell, hp']
        obtain ⟨s', e1, r1, c1, n1, p1⟩ := horizFace_ok hs.rep (nodes := ring col i j (K + 1)) (a := s.prev) (b := -1) room1 room2 h3
        refine ⟨s', e1, ?_⟩
        refine ⟨?_, by rw [p1, ec, hcell], by rw [c1]; exact hs.clen, fun k hk => by rw [c1]; exact hs.done k (same (by omega) k hk),
          fun t ht => by rw [c1]; exact hs.other t (fun k hk => ht k (by omega)), ?_⟩
        · rw [tags _ _ el, List.append_assoc, ← el] at r1
          exact r1
        · rw [n1, hno (by omega)]; exact hs.no

theorem forRange_one {σ : Type _} {n : Nat} {f : Nat → σ → M σ} {s : σ} (P : Nat → σ → Prop) (h0 : P 0 s) (hs : ∀ K t, K < n → P K t → ∃ t', f (K + 1) t = .ok t' ∧ P (K + 1) t') :
    ∃ t, forRange 1 (n + 1) f s = .ok t ∧ P n t := by
  obtain ⟨t, e, h⟩ := forRange_inv (a := 1) (b := n + 1) (f := f) (s := s) (by omega) (fun k t => P (k - 1) t) h0 (by
    intro k t h1 h2 hp
    obtain ⟨t', e, hp'⟩ := hs (k - 1) t (by omega) hp
    rw [show k - 1 + 1 = k by omega] at e hp'
    exact ⟨t', e, hp'⟩)
  exact ⟨t, e, h⟩

theorem levelFaces_spec (i j : Nat) : StackFaces nx ny nz col i j (levelFaces nx ny col i j (2 * nz)) :=
  ⟨layerPairs col i j (2 * nz), layerPairs_sorted _, fun _ _ => mem_layerPairs, rfl⟩

theorem horizontalStack_ok (J : Junk) (h : Columns nx ny nz np plist col act start) {g : PGrid} {fs : List Face} {ts : List Nat} {qs : List (List Int)} {cell : List Int}
    {cellno i j : Nat} (hi : i < nx) (hj : j < ny) (hg : GInv g fs ts qs) (hc : cell.length = nx * ny * nz) :
    ∃ gs g' cell', StackFaces nx ny nz col i j gs ∧
      horizontalStack J plist nx ny nz i j (g, cell, cellno) = .ok (g', cell', cellno + (List.range nz).countP (fun k => decide (¬ Collapsed col i j (2 * k + 1)))) ∧
      GInv g' (fs ++ gs) (ts ++ List.replicate gs.length 2) qs ∧ g'.np = g.np ∧ cell'.length = nx * ny * nz ∧
      (∀ k, k < nz → ∃ v, cell'[cartesian nx ny i j k]? = some v ∧ -1 ≤ v ∧ (v = -1 ↔ Collapsed col i j (2 * k + 1))) ∧
      (∀ t, (∀ k, k < nz → t ≠ cartesian nx ny i j k) → cell'[t]? = cell[t]?) := by
  obtain ⟨g1, e1, i1, np1, nf1, nn1, m1, n1⟩ := checkmemory_ok J nz hg
  have hr : 2 * nz ≤ (2 * nz + 2) * (2 * nz + 2) := by
    calc 2 * nz ≤ 2 * nz + 2 := by omega
      _ ≤ (2 * nz + 2) * (2 * nz + 2) := Nat.le_mul_of_pos_left _ (by omega)
  obtain ⟨s, e2, hs⟩ := forRange_one (n := 2 * nz) (f := Horiz.step plist (vectorPositions (2 * nx) (2 * ny) (2 + 2 * nz) (2 * i + 1) (2 * j + 1)) nx ny nz i j)
    (s := { f := ⟨g1.nodes, (faceNodes fs).length⟩, c := ⟨g1.nbr, 2 * g1.nf⟩, ptr := g1.ptr, tag := g1.tag, nf := g1.nf, cell := cell, cellno := cellno, prev := -1 })
    (HInv nx ny nz col g1 fs ts cell cellno i j) (by
      refine ⟨?_, ?_, hc, ?_, fun t _ => rfl, rfl⟩
      · have e : levelFaces nx ny col i j 0 = [] := rfl
        rw [e, List.append_nil, List.length_nil, List.replicate_zero, List.append_nil]
        exact ⟨⟨rfl, i1.nlen, i1.nodes⟩, ⟨by rw [length_faceNbrs]; simp only; rw [i1.nf], rfl, by rw [length_faceNbrs]; exact i1.nbr⟩, i1.plen, i1.ptr, i1.tlen, i1.tag, i1.nf⟩
      · simp only
        unfold lastCell lastLayer
        split
        · rename_i L e
          split at e
          · cases e
          · obtain rfl := Option.some.inj e
            rfl
        · rfl
      · intro k hk; omega)
    (fun K t hK ht => horizStep_ok h hi hj (by omega) (by omega) (by omega) i1.clen ht)
  have hrep := hs.rep
  have hle : (levelFaces nx ny col i j (2 * nz)).length ≤ 2 * nz := by unfold levelFaces; rw [List.length_map]; exact length_layerPairs _
  refine ⟨levelFaces nx ny col i j (2 * nz), { g1 with nbr := s.c.buf, nodes := s.f.buf, ptr := s.ptr, tag := s.tag, nf := s.nf }, s.cell, levelFaces_spec i j, ?_, ?_, np1, hs.clen, ?_, ?_⟩
  · unfold horizontalStack
    rw [e1, bind_ok, rd_of_getElem? i1.ptrAt, bind_ok, Nat.mul_comm nz 2]
    simp only
    rw [e2, bind_ok, hs.no, show (2 * nz + 1) / 2 = nz by omega]
  · refine ⟨hrep.nf, hrep.f.2.1, hrep.f.2.2, ?_, ?_, hrep.plen, hrep.ptr, hrep.tlen, hrep.tag, i1.xlen, i1.its, i1.four, i1.nn, ?_⟩
    · simp only; rw [hrep.c.2.1]; exact i1.clen
    · simp only; rw [← length_faceNbrs]; exact hrep.c.2.2
    · simp only; rw [List.length_append]; omega
  · intro k hk
    exact hs.done k (by omega)
  · intro t ht
    exact hs.other t (fun k hk => ht k (by omega))

theorem cartesian_mod {nx ny i j k : Nat} (hi : i < nx) : cartesian nx ny i j k % nx = i := by
  unfold cartesian; rw [Nat.add_mul_mod_self_left, Nat.mod_eq_of_lt hi]

theorem cartesian_div {nx ny i j k : Nat} (hi : i < nx) : cartesian nx ny i j k / nx = j + ny * k := by
  unfold cartesian; rw [Nat.add_mul_div_left _ _ (by omega), Nat.div_eq_of_lt hi, Nat.zero_add]

theorem cartesian_inj {nx ny i j k i' j' k' : Nat} (hi : i < nx) (hj : j < ny) (hi' : i' < nx) (hj' : j' < ny) (h : cartesian nx ny i j k = cartesian nx ny i' j' k') :
    i = i' ∧ j = j' ∧ k = k' := by
  have h1 : i = i' := by rw [← cartesian_mod hi (j := j) (k := k) (ny := ny), h, cartesian_mod hi']
  have h2 : j + ny * k = j' + ny * k' := by rw [← cartesian_div hi (j := j) (k := k) (ny := ny), h, cartesian_div hi']
  have h3 : j = j' := by
    have := congrArg (· % ny) h2
    simp only [Nat.add_mul_mod_self_left] at this
    rwa [Nat.mod_eq_of_lt hj, Nat.mod_eq_of_lt hj'] at this
  subst h1 h3
  exact ⟨rfl, rfl, cartesian_k_inj (by omega) (by omega) h⟩

theorem solid_cartesian {i j k : Nat} (hi : i < nx) (hj : j < ny) : Solid nx ny col (cartesian nx ny i j k) ↔ ¬ Collapsed col i j (2 * k + 1) := by
  unfold Solid
  rw [cartesian_mod hi, cartesian_div hi, Nat.add_mul_mod_self_left, Nat.mod_eq_of_lt hj, Nat.add_mul_div_left _ _ (by omega), Nat.div_eq_of_lt hj, Nat.zero_add]

theorem mem_columnsOf {i j : Nat} : (i, j) ∈ columnsOf nx ny ↔ i < nx ∧ j < ny := by
  unfold columnsOf
  simp only [List.mem_flatMap, List.mem_range, List.mem_map, Prod.mk.injEq]
  constructor
  · rintro ⟨b, hb, a, ha, rfl, rfl⟩; exact ⟨ha, hb⟩
  · rintro ⟨h1, h2⟩; exact ⟨j, h2, i, h1, rfl, rfl⟩

/-- Every cell number belongs to a cell. -/
theorem cartesian_surj {c : Nat} (hc : c < nx * ny * nz) : ∃ i j k, i < nx ∧ j < ny ∧ k < nz ∧ c = cartesian nx ny i j k := by
  have hx : 0 < nx := by rcases Nat.eq_zero_or_pos nx with h | h; · subst h; simp at hc
                         · exact h
  have hy : 0 < ny := by rcases Nat.eq_zero_or_pos ny with h | h; · subst h; simp at hc
                         · exact h
  refine ⟨c % nx, c / nx % ny, c / nx / ny, Nat.mod_lt _ hx, Nat.mod_lt _ hy, ?_, ?_⟩
  · rw [Nat.div_div_eq_div_mul]
    exact Nat.div_lt_of_lt_mul hc
  · unfold cartesian
    rw [Nat.mod_add_div, Nat.mod_add_div]

/-- Numbers of the cells of a list of cell columns. -/
def cellsOf (nx ny nz : Nat) (cs : List (Nat × Nat)) : List Nat := cs.flatMap (fun c => (List.range nz).map (fun k => cartesian nx ny c.1 c.2 k))

theorem cellsOf_perm (nx ny nz : Nat) : (cellsOf nx ny nz (columnsOf nx ny)).Perm (List.range (nx * ny * nz)) := by
  have hn : (columnsOf nx ny).Nodup := by
    unfold columnsOf
    rw [List.nodup_flatMap]
    refine ⟨fun j _ => List.Nodup.map (fun a b h => by simpa using h) List.nodup_range, ?_⟩
    apply List.Pairwise.imp _ (List.nodup_range (n := ny))
    intro a b hab
    rw [Function.onFun, List.disjoint_left]
    intro x hx hx'
    obtain ⟨i, _, rfl⟩ := List.mem_map.1 hx
    obtain ⟨i', _, h'⟩ := List.mem_map.1 hx'
    simp only [Prod.mk.injEq] at h'
    exact hab h'.2.symm
  rw [List.perm_ext_iff_of_nodup _ List.nodup_range]
  · intro c
    rw [List.mem_range]
    unfold cellsOf
    rw [List.mem_flatMap]
    constructor
    · rintro ⟨⟨i, j⟩, hm, h⟩
      obtain ⟨k, hk, rfl⟩ := List.mem_map.1 h
      obtain ⟨h1, h2⟩ := mem_columnsOf.1 hm
      exact cartesian_lt h1 h2 (List.mem_range.1 hk)
    · intro hc
      obtain ⟨i, j, k, hi, hj, hk, rfl⟩ := cartesian_surj hc
      exact ⟨(i, j), mem_columnsOf.2 ⟨hi, hj⟩, List.mem_map.2 ⟨k, List.mem_range.2 hk, rfl⟩⟩
  · unfold cellsOf
    rw [List.nodup_flatMap]
    constructor
    · rintro ⟨i, j⟩ hm
      obtain ⟨h1, h2⟩ := mem_columnsOf.1 hm
      apply List.Nodup.map _ List.nodup_range
      intro a b hab
      exact cartesian_k_inj (by omega) (by omega) hab
    · apply List.Pairwise.imp_of_mem _ hn
      rintro ⟨i, j⟩ ⟨i', j'⟩ hm hm' hne
      obtain ⟨h1, h2⟩ := mem_columnsOf.1 hm
      obtain ⟨h3, h4⟩ := mem_columnsOf.1 hm'
      rw [Function.onFun, List.disjoint_left]
      intro x hx hx'
      obtain ⟨k, _, rfl⟩ := List.mem_map.1 hx
      obtain ⟨k', _, h'⟩ := List.mem_map.1 hx'
      obtain ⟨e1, e2, _⟩ := cartesian_inj h3 h4 h1 h2 h'
      exact hne (by rw [e1, e2])

/-- All horizontal faces, and the cells. -/
theorem horizontalFaces_ok (J : Junk) (h : Columns nx ny nz np plist col act start) {g : PGrid} {fs : List Face} {ts : List Nat} {qs : List (List Int)} {cell : List Int}
    (hg : GInv g fs ts qs) (hc : cell.length = nx * ny * nz) :
    ∃ gs g' cell', TopFaces nx ny nz col (columnsOf nx ny) gs ∧
      horizontalFaces J plist nx ny nz (g, cell) = .ok (g', cell', (List.range (nx * ny * nz)).countP (fun c => decide (Solid nx ny col c))) ∧
      GInv g' (fs ++ gs) (ts ++ List.replicate gs.length 2) qs ∧ g'.np = g.np ∧ cell'.length = nx * ny * nz ∧
      ∀ c, c < nx * ny * nz → ∃ v, cell'[c]? = some v ∧ -1 ≤ v ∧ (v = -1 ↔ ¬ Solid nx ny col c) := by
  unfold horizontalFaces
  rw [loop2_eq_foldlM]
  obtain ⟨t, e, gs, g', cell', rfl, k1, k2, k3, k4, k5⟩ := foldlM_inv
    (l := (List.range ny).flatMap (fun j => (List.range nx).map (fun i => (i, j))))
    (f := fun t x => horizontalStack J plist nx ny nz x.1 x.2 t) (s := (g, cell, 0))
    (fun (done : List (Nat × Nat)) (t : PGrid × List Int × Nat) => ∃ gs g' cell', t = (g', cell', (cellsOf nx ny nz done).countP (fun c => decide (Solid nx ny col c))) ∧
      TopFaces nx ny nz col done gs ∧ GInv g' (fs ++ gs) (ts ++ List.replicate gs.length 2) qs ∧ g'.np = g.np ∧ cell'.length = nx * ny * nz ∧
      ∀ c ∈ cellsOf nx ny nz done, ∃ v, cell'[c]? = some v ∧ -1 ≤ v ∧ (v = -1 ↔ ¬ Solid nx ny col c))
    ⟨[], g, cell, rfl, .nil, by simpa using hg, rfl, hc, by intro c hc; cases hc⟩ (by
      rintro done ⟨i, j⟩ rest t hl ⟨gs, g', cell', rfl, h1, h2, h3, h4, h5⟩
      have hm : (i, j) ∈ columnsOf nx ny := by unfold columnsOf; rw [hl]; simp
      obtain ⟨hi, hj⟩ := mem_columnsOf.1 hm
      obtain ⟨ns, g'', cell'', k1, k2, k3, k4, k5, k6, k7⟩ := horizontalStack_ok J h (cellno := (cellsOf nx ny nz done).countP (fun c => decide (Solid nx ny col c))) hi hj h2 h4
      have ecells : cellsOf nx ny nz (done ++ [(i, j)]) = cellsOf nx ny nz done ++ (List.range nz).map (fun k => cartesian nx ny i j k) := by
        unfold cellsOf
        rw [List.flatMap_append]
        simp
      have ecount : (cellsOf nx ny nz (done ++ [(i, j)])).countP (fun c => decide (Solid nx ny col c)) =
          (cellsOf nx ny nz done).countP (fun c => decide (Solid nx ny col c)) + (List.range nz).countP (fun k => decide (¬ Collapsed col i j (2 * k + 1))) := by
        rw [ecells, List.countP_append, List.countP_map]
        congr 1
        apply List.countP_congr
        intro k hk
        simp only [Function.comp, decide_eq_true_eq]
        exact solid_cartesian hi hj
      refine ⟨_, k2, gs ++ ns, g'', cell'', by rw [ecount], .snoc h1 k1, ?_, by rw [k4, h3], k5, ?_⟩
      · rw [List.length_append, ← List.replicate_append_replicate, ← List.append_assoc, ← List.append_assoc]
        exact k3
      · intro c hcm
        by_cases hin : ∃ k, k < nz ∧ c = cartesian nx ny i j k
        · obtain ⟨k, hk, rfl⟩ := hin
          obtain ⟨v, v1, v2, v3⟩ := k6 k hk
          exact ⟨v, v1, v2, by rw [v3, solid_cartesian hi hj, not_not]⟩
        · rw [k7 c (fun k hk e => hin ⟨k, hk, e⟩)]
          apply h5
          rw [ecells, List.mem_append] at hcm
          rcases hcm with hcm | hcm
          · exact hcm
          · obtain ⟨k, hk, rfl⟩ := List.mem_map.1 hcm
            exact absurd ⟨k, List.mem_range.1 hk, rfl⟩ hin)
  have hperm := cellsOf_perm nx ny nz
  refine ⟨gs, g', cell', k1, ?_, k2, k3, k4, ?_⟩
  · rw [← hperm.countP_eq]; exact e
  · intro c hcl
    exact k5 c (hperm.mem_iff.2 (List.mem_range.2 hcl))

end

end Opm.Cpg
