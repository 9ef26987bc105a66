import Verif.Proofs.FaceDecode
/-!
# Processed grids: proof of the specification
-/

namespace Opm.Cpg
open Opm UniquePoints

section
variable {inp : Input} {tol : Rat} {out : Output} {s : Int} {np : Nat} {start : Nat → Nat} {col : Nat → Nat → Nat → Int} {fs : List Face} {ts : List Nat} {qs : List (List Int)}
  {gs : List Face}

/-- The faces of a processed grid, by their keys. -/
structure Keys (inp : Input) (out : Output) (col : Nat → Nat → Nat → Int) (fs gs : List Face) (ks : List SideKey) (ls : List TopKey) : Prop where
  nodupS : ks.Nodup
  nodupT : ls.Nodup
  nf : out.grid.nf = ks.length + ls.length
  side : ∀ t k, ks[t]? = some k → ∃ F ∈ fs, out.tag t = k.dir ∧ out.face t = storedFace inp col F ∧ k.IsOf inp.nx inp.ny F
  top : ∀ t k, ls[t]? = some k → ∃ F ∈ gs, out.tag (ks.length + t) = 2 ∧ out.face (ks.length + t) = storedFace inp col F ∧
    F = ⟨layerCell inp.nx inp.ny k.i k.j k.L, layerCell inp.nx inp.ny k.i k.j k.K, ring col k.i k.j k.K⟩
  memS : ∀ k : SideKey, ∀ hp hq, Deeper hp → Deeper hq → (k ∈ ks ↔ IsPair inp.nx inp.ny k.dir k.i k.j ∧ k.K < 2 * inp.nz + 1 ∧ k.L < 2 * inp.nz + 1 ∧ (IsCell k.K ∨ IsCell k.L) ∧
    Overlap (lowStack col k.dir k.i k.j) (highStack inp.nx inp.ny col k.dir k.i k.j) hp hq k.K k.L)
  memT : ∀ k : TopKey, k ∈ ls ↔ (k.i < inp.nx ∧ k.j < inp.ny) ∧ k.K ≤ 2 * inp.nz ∧ DirectlyAbove col k.i k.j k.L k.K ∧ (IsCell k.L ∨ IsCell k.K)

theorem GridOf.keys (h : GridOf inp tol out s np start col fs ts qs gs) : ∃ ks ls, Keys inp out col fs gs ks ls := by
  obtain ⟨ks, k1, k2, k3, k4⟩ := side_keys h.sides (nodup_pairs _ _)
  obtain ⟨ls, l1, l2, l3⟩ := top_keys h.tops (nodup_columnsOf _ _)
  have hlen : ks.length = fs.length := k3.length_eq
  have htl : ts.length = fs.length := by rw [k4, List.length_map, hlen]
  have hll : gs.length = ls.length := by rw [l3, List.length_map]
  refine ⟨ks, ls, k1, l1, by rw [h.numFaces, hlen, hll], ?_, ?_, ?_, ?_⟩
  · intro t k hk
    obtain ⟨ht, e⟩ := List.getElem?_eq_some_iff.1 hk
    have hF : t < fs.length := by omega
    have hrel := (List.forall₂_iff_get.1 k3).2 t ht hF
    simp only [List.get_eq_getElem] at hrel
    rw [e] at hrel
    refine ⟨fs[t], List.getElem_mem hF, ?_, ?_, hrel⟩
    · apply h.tag htl
      rw [List.getElem?_append_left (by omega), k4, List.getElem?_map, hk]
      rfl
    · apply h.face
      rw [List.getElem?_append_left hF, List.getElem?_eq_getElem hF]
  · intro t k hk
    obtain ⟨ht, e⟩ := List.getElem?_eq_some_iff.1 hk
    have hg : gs[t]? = some ⟨layerCell inp.nx inp.ny k.i k.j k.L, layerCell inp.nx inp.ny k.i k.j k.K, ring col k.i k.j k.K⟩ := by rw [l3, List.getElem?_map, hk]; rfl
    refine ⟨_, List.mem_of_getElem? hg, ?_, ?_, rfl⟩
    · apply h.tag htl
      rw [List.getElem?_append_right (by omega), List.getElem?_replicate_of_lt (by omega)]
    · apply h.face
      rw [List.getElem?_append_right (by omega), show ks.length + t - fs.length = t by omega, hg]
  · intro k hp hq dp dq
    rw [k2 k hp hq dp dq, mem_pairs_iff]
  · intro k
    rw [l2 k, mem_columnsOf]

theorem nodup_solid (nx ny nz : Nat) (col : Nat → Nat → Nat → Int) : (solidCells nx ny nz col).Nodup := List.nodup_range.filter _

theorem mem_solid {nx ny nz c : Nat} : c ∈ solidCells nx ny nz col ↔ c < nx * ny * nz ∧ Solid nx ny col c := by
  unfold solidCells
  rw [List.mem_filter, List.mem_range, decide_eq_true_eq]

theorem GridOf.cellAt (h : GridOf inp tol out s np start col fs ts qs gs) {n i j k : Nat} (hc : out.IsCellAt inp n i j k) :
    (solidCells inp.nx inp.ny inp.nz col)[n]? = some (cartesian inp.nx inp.ny i j k) := by
  obtain ⟨hn, _, _, _, e⟩ := hc
  rw [take_getElem? h.cells hn, List.getElem?_map] at e
  obtain ⟨c, h1, h2⟩ := Option.map_eq_some_iff.1 e
  rw [h1]
  congr 1
  exact_mod_cast h2

theorem GridOf.solidAt (h : GridOf inp tol out s np start col fs ts qs gs) {n i j k : Nat} (hc : out.IsCellAt inp n i j k) : ¬ Collapsed col i j (2 * k + 1) := by
  have := (mem_solid.1 (List.mem_of_getElem? (h.cellAt hc))).2
  exact (solid_cartesian hc.2.1 hc.2.2.1).1 this

theorem compressed_iff {cells : List Nat} (hn : cells.Nodup) {n c : Nat} (hc : cells[n]? = some c) {v : Int} (hv : v = -1 ∨ ∃ d : Nat, v = d ∧ d ∈ cells) :
    compressed cells v = n ↔ v = c := by
  obtain ⟨hlt, e⟩ := List.getElem?_eq_some_iff.1 hc
  unfold compressed
  rcases hv with rfl | ⟨d, rfl, hd⟩
  · rw [if_pos rfl]
    constructor <;> intro h <;> omega
  · rw [if_neg (by omega)]
    simp only [Int.toNat_natCast, Nat.cast_inj]
    constructor
    · intro h
      have h1 := List.idxOf_lt_length_of_mem hd
      have h2 := List.getElem_idxOf h1
      rw [← h2, ← e]
      congr 1
    · rintro rfl
      rw [← e]
      exact hn.idxOf_getElem n hlt

theorem compressed_range {cells : List Nat} {v : Int} (hv : v = -1 ∨ ∃ d : Nat, v = d ∧ d ∈ cells) :
    (v = -1 ∧ compressed cells v = -1) ∨ (v ≠ -1 ∧ 0 ≤ compressed cells v ∧ compressed cells v < cells.length) := by
  unfold compressed
  rcases hv with rfl | ⟨d, rfl, hd⟩
  · left; exact ⟨rfl, if_pos rfl⟩
  · right
    rw [if_neg (by omega)]
    have h1 := List.idxOf_lt_length_of_mem hd
    simp only [Int.toNat_natCast]
    omega

theorem compressed_inj {cells : List Nat} {v w : Int} (hv : v = -1 ∨ ∃ d : Nat, v = d ∧ d ∈ cells) (hw : w = -1 ∨ ∃ d : Nat, w = d ∧ d ∈ cells)
    (h : compressed cells v = compressed cells w) : v = w := by
  unfold compressed at h
  rcases hv with rfl | ⟨d, rfl, hd⟩
  · rcases hw with rfl | ⟨d, rfl, hd⟩
    · rfl
    · rw [if_pos rfl, if_neg (by omega)] at h; omega
  · rcases hw with rfl | ⟨d', rfl, hd'⟩
    · rw [if_pos rfl, if_neg (by omega)] at h; omega
    · rw [if_neg (by omega), if_neg (by omega)] at h
      simp only [Int.toNat_natCast, Nat.cast_inj] at h
      have h1 := List.idxOf_lt_length_of_mem hd
      have h2 := List.getElem_idxOf h1
      have h3 := List.getElem_idxOf (List.idxOf_lt_length_of_mem hd')
      have : d = d' := by
        rw [← h2, ← h3]
        congr 1
      rw [this]

/-- The neighbours of all faces are solid cells, or `-1`. -/
theorem good_mem {nx ny nz : Nat} {f : Face} (h : GoodFace nx ny nz col f) :
    (f.a = -1 ∨ ∃ d : Nat, f.a = d ∧ d ∈ solidCells nx ny nz col) ∧ (f.b = -1 ∨ ∃ d : Nat, f.b = d ∧ d ∈ solidCells nx ny nz col) := by
  obtain ⟨h1, h2⟩ := h
  refine ⟨h1.imp id ?_, h2.imp id ?_⟩ <;> rintro ⟨c, e, h⟩ <;> exact ⟨c, e, mem_solid.2 h⟩

theorem GridOf.good (h : GridOf inp tol out s np start col fs ts qs gs) (hok : inp.Ok) : ∀ F, F ∈ fs ∨ F ∈ gs → GoodFace inp.nx inp.ny inp.nz col F := by
  obtain ⟨plist, hc⟩ := h.columns
  rintro F (hF | hF)
  · exact sideFaces_good hc hok.nx hok.ny h.sides (fun c hc => mem_pairs hc) F hF
  · exact topFaces_good h.tops (fun c hc => mem_columnsOf.1 hc) F hF

theorem cellIn_eq {nx ny : Nat} {o : Option (Nat × Nat)} (ho : ∀ a b, o = some (a, b) → a < nx ∧ b < ny) {K i j k : Nat} (hi : i < nx) (hj : j < ny) :
    cellIn nx ny o (cellNumber K) = (cartesian nx ny i j k : Nat) ↔ o = some (i, j) ∧ K = 2 * k + 1 := by
  unfold cellIn cellNumber
  cases o with
  | none => simp
  | some ab =>
    obtain ⟨a, b⟩ := ab
    obtain ⟨h1, h2⟩ := ho a b rfl
    simp only [Option.some.injEq, Prod.mk.injEq]
    by_cases hK : IsCell K
    · have hK' : K % 2 = 1 := hK
      rw [if_pos hK, if_neg (by omega)]
      have e : (a : Int) + nx * (b + ny * ((K / 2 : Nat) : Int)) = (cartesian nx ny a b (K / 2) : Nat) := by unfold cartesian; push_cast; rfl
      rw [e, Nat.cast_inj]
      constructor
      · intro h
        obtain ⟨e1, e2, e3⟩ := cartesian_inj h1 h2 hi hj h
        exact ⟨⟨e1, e2⟩, by omega⟩
      · rintro ⟨⟨rfl, rfl⟩, rfl⟩
        congr 1
        omega
    · rw [if_neg hK, if_pos rfl]
      have hK' : K % 2 ≠ 1 := hK
      constructor
      · intro h; omega
      · rintro ⟨_, rfl⟩; omega

theorem layerCell_eq {nx ny : Nat} {a b K i j k : Nat} (ha : a < nx) (hb : b < ny) (hi : i < nx) (hj : j < ny) :
    layerCell nx ny a b K = (cartesian nx ny i j k : Nat) ↔ a = i ∧ b = j ∧ K = 2 * k + 1 := by
  unfold layerCell
  by_cases hK : IsCell K
  · have hK' : K % 2 = 1 := hK
    rw [if_pos hK, Nat.cast_inj]
    constructor
    · intro h
      obtain ⟨e1, e2, e3⟩ := cartesian_inj ha hb hi hj h
      exact ⟨e1, e2, by omega⟩
    · rintro ⟨rfl, rfl, rfl⟩
      congr 1
      omega
  · rw [if_neg hK]
    have hK' : K % 2 ≠ 1 := hK
    constructor
    · intro h; omega
    · rintro ⟨_, _, rfl⟩; omega

/-! ### Faces by tag -/

theorem Keys.ofTop {ks : List SideKey} {ls : List TopKey} (hk : Keys inp out col fs gs ks ls) {f : Nat} (hf : f < out.grid.nf) (ht : out.tag f = 2) :
    ∃ t k, f = ks.length + t ∧ ls[t]? = some k := by
  have hnf := hk.nf
  rcases Nat.lt_or_ge f ks.length with h | h
  · obtain ⟨F, _, e, _⟩ := hk.side f _ (List.getElem?_eq_getElem h)
    have hm := (hk.memS _ _ _ deeper_cast deeper_cast).1 (List.getElem_mem h)
    have := hm.1.1
    omega
  · have hlt : f - ks.length < ls.length := by omega
    exact ⟨f - ks.length, ls[f - ks.length], by omega, List.getElem?_eq_getElem hlt⟩

theorem Keys.ofSide {ks : List SideKey} {ls : List TopKey} (hk : Keys inp out col fs gs ks ls) {f : Nat} (hf : f < out.grid.nf) (ht : out.tag f < 2) :
    ∃ k, ks[f]? = some k ∧ k.dir = out.tag f := by
  have hnf := hk.nf
  rcases Nat.lt_or_ge f ks.length with h | h
  · obtain ⟨F, _, e, _⟩ := hk.side f _ (List.getElem?_eq_getElem h)
    exact ⟨ks[f], List.getElem?_eq_getElem h, e.symm⟩
  · have hlt : f - ks.length < ls.length := by omega
    obtain ⟨F, _, e, _⟩ := hk.top (f - ks.length) _ (List.getElem?_eq_getElem hlt)
    rw [show ks.length + (f - ks.length) = f by omega] at e
    omega

theorem Keys.cases {ks : List SideKey} {ls : List TopKey} (hk : Keys inp out col fs gs ks ls) {f : Nat} (hf : f < out.grid.nf) :
    (∃ k, ks[f]? = some k) ∨ ∃ t k, f = ks.length + t ∧ ls[t]? = some k := by
  have hnf := hk.nf
  rcases Nat.lt_or_ge f ks.length with h | h
  · exact Or.inl ⟨_, List.getElem?_eq_getElem h⟩
  · have hlt : f - ks.length < ls.length := by omega
    exact Or.inr ⟨f - ks.length, ls[f - ks.length], by omega, List.getElem?_eq_getElem hlt⟩

theorem nodup_index {α : Type _} {l : List α} (h : l.Nodup) {i j : Nat} {x : α} (hi : l[i]? = some x) (hj : l[j]? = some x) : i = j := by
  obtain ⟨h1, e1⟩ := List.getElem?_eq_some_iff.1 hi
  obtain ⟨h2, e2⟩ := List.getElem?_eq_some_iff.1 hj
  exact (List.Nodup.getElem_inj_iff h).1 (e1.trans e2.symm)

/-- The upper neighbour of a horizontal face. -/
theorem Keys.topA {ks : List SideKey} {ls : List TopKey} (hk : Keys inp out col fs gs ks ls) (h : GridOf inp tol out s np start col fs ts qs gs) (hok : inp.Ok) {t : Nat} {x : TopKey}
    (hx : ls[t]? = some x) {n i j k : Nat} (hc : out.IsCellAt inp n i j k) :
    (out.face (ks.length + t)).a = n ↔ x.i = i ∧ x.j = j ∧ x.L = 2 * k + 1 := by
  obtain ⟨F, hF, _, e, rfl⟩ := hk.top t x hx
  have hm := ((hk.memT x).1 (List.mem_of_getElem? hx)).1
  rw [e, storedFace_a, compressed_iff (nodup_solid _ _ _ _) (h.cellAt hc) (good_mem (h.good hok _ (Or.inr hF))).1, layerCell_eq hm.1 hm.2 hc.2.1 hc.2.2.1]

/-- The lower neighbour of a horizontal face. -/
theorem Keys.topB {ks : List SideKey} {ls : List TopKey} (hk : Keys inp out col fs gs ks ls) (h : GridOf inp tol out s np start col fs ts qs gs) (hok : inp.Ok) {t : Nat} {x : TopKey}
    (hx : ls[t]? = some x) {n i j k : Nat} (hc : out.IsCellAt inp n i j k) :
    (out.face (ks.length + t)).b = n ↔ x.i = i ∧ x.j = j ∧ x.K = 2 * k + 1 := by
  obtain ⟨F, hF, _, e, rfl⟩ := hk.top t x hx
  have hm := ((hk.memT x).1 (List.mem_of_getElem? hx)).1
  rw [e, storedFace_b, compressed_iff (nodup_solid _ _ _ _) (h.cellAt hc) (good_mem (h.good hok _ (Or.inr hF))).2, layerCell_eq hm.1 hm.2 hc.2.1 hc.2.2.1]

theorem Keys.sideA {ks : List SideKey} {ls : List TopKey} (hk : Keys inp out col fs gs ks ls) (h : GridOf inp tol out s np start col fs ts qs gs) (hok : inp.Ok) {t : Nat} {x : SideKey}
    (hx : ks[t]? = some x) {n i j k : Nat} (hc : out.IsCellAt inp n i j k) :
    (out.face t).a = n ↔ lowCol x.dir x.i x.j = some (i, j) ∧ x.K = 2 * k + 1 := by
  obtain ⟨F, hF, _, e, he⟩ := hk.side t x hx
  have hm := ((hk.memS x _ _ deeper_cast deeper_cast).1 (List.mem_of_getElem? hx)).1
  rw [e, storedFace_a, compressed_iff (nodup_solid _ _ _ _) (h.cellAt hc) (good_mem (h.good hok _ (Or.inl hF))).1, he.1,
    cellIn_eq (fun a b e => lowCol_lt hm e) hc.2.1 hc.2.2.1]

theorem Keys.sideB {ks : List SideKey} {ls : List TopKey} (hk : Keys inp out col fs gs ks ls) (h : GridOf inp tol out s np start col fs ts qs gs) (hok : inp.Ok) {t : Nat} {x : SideKey}
    (hx : ks[t]? = some x) {n i j k : Nat} (hc : out.IsCellAt inp n i j k) :
    (out.face t).b = n ↔ highCol inp.nx inp.ny x.i x.j = some (i, j) ∧ x.L = 2 * k + 1 := by
  obtain ⟨F, hF, _, e, he⟩ := hk.side t x hx
  rw [e, storedFace_b, compressed_iff (nodup_solid _ _ _ _) (h.cellAt hc) (good_mem (h.good hok _ (Or.inl hF))).2, he.2,
    cellIn_eq (fun a b e => ⟨(highCol_lt e).1, (highCol_lt e).2.1⟩) hc.2.1 hc.2.2.1]

theorem above_unique {i j L L' K : Nat} (h : DirectlyAbove col i j L K) (h' : DirectlyAbove col i j L' K) : L = L' := by
  rcases Nat.lt_trichotomy L L' with hl | hl | hl
  · exact absurd (h.2.2.2 L' hl h'.1) h'.2.1
  · exact hl
  · exact absurd (h'.2.2.2 L hl h.1) h.2.1

theorem below_unique {i j L K K' : Nat} (h : DirectlyAbove col i j L K) (h' : DirectlyAbove col i j L K') : K = K' := by
  rcases Nat.lt_trichotomy K K' with hl | hl | hl
  · exact absurd (h'.2.2.2 K h.1 hl) h.2.2.1
  · exact hl
  · exact absurd (h.2.2.2 K' h'.1 hl) h'.2.2.1

theorem ring_between {i j L : Nat} : ∀ {K : Nat}, L < K → (∀ M, L < M → M < K → Collapsed col i j M) → ring col i j (L + 1) = ring col i j K
  | 0, h, _ => by omega
  | K + 1, h, hM => by
    rcases Nat.lt_or_ge L K with hl | hl
    · rw [ring_between hl (fun M h1 h2 => hM M h1 (by omega))]
      have := hM K hl (by omega)
      unfold Collapsed level at this
      simp only [List.cons.injEq, and_true] at this
      unfold ring
      rw [this.1, this.2.1, this.2.2.1, this.2.2.2]
    · rw [show L = K by omega]

theorem Columns.nextOf {nx ny nz np : Nat} {plist : List Int} {act : Nat → Nat → Nat → Prop} (h : Columns nx ny nz np plist col act start) {i j L : Nat} (hi : i < nx) (hj : j < ny)
    (hL : L < 2 * nz) (hc : ¬ Collapsed col i j L) : ∃ K, K ≤ 2 * nz ∧ DirectlyAbove col i j L K := by
  have hlast : ¬ Collapsed col i j (2 * nz) := by
    unfold Collapsed level
    simp only [List.cons.injEq, and_true]
    intro e
    have h1 := h.below (2 * i) (2 * j) (2 * nz) (by omega) (by omega) (by omega)
    have h2 := h.bottom (2 * i) (2 * j) (by omega) (by omega)
    rw [← e.1] at h2
    omega
  have hex : ∃ K, L < K ∧ ¬ Collapsed col i j K := ⟨2 * nz, hL, hlast⟩
  classical
  refine ⟨Nat.find hex, Nat.find_min' hex ⟨hL, hlast⟩, (Nat.find_spec hex).1, hc, (Nat.find_spec hex).2, ?_⟩
  intro M h1 h2
  have := Nat.find_min hex h2
  by_contra hn
  exact this ⟨h1, hn⟩

theorem cornerRing_eq {flip : Prop} [Decidable flip] {i j k r : Nat} :
    cornerRing (fun I J K => col I J (K + 1)) flip i j k r = if flip then (ring col i j (2 * k + r + 1)).reverse else ring col i j (2 * k + r + 1) := rfl

theorem GridOf.top (h : GridOf inp tol out s np start col fs ts qs gs) (hok : inp.Ok) {n i j k : Nat} (hc : out.IsCellAt inp n i j k) :
    (∃ f, f < out.grid.nf ∧ out.tag f = 2 ∧ (out.face f).b = n ∧ (out.face f).nodes = cornerRing (fun I J K => col I J (K + 1)) (inp.area < 0) i j k 0) ∧
    ∀ f f', f < out.grid.nf → f' < out.grid.nf → out.tag f = 2 → out.tag f' = 2 → (out.face f).b = n → (out.face f').b = n → f = f' := by
  obtain ⟨ks, ls, hk⟩ := h.keys
  obtain ⟨plist, hcols⟩ := h.columns
  have hs := h.solidAt hc
  have hnf := hk.nf
  constructor
  · have hl := hcols.lastOf hc.2.1 hc.2.2.1 hc.2.2.2.1 hs
    obtain ⟨L, hL⟩ := Option.ne_none_iff_exists'.1 hl
    have hd : DirectlyAbove col i j L (2 * k + 1) := directly_iff.2 ⟨hL, hs⟩
    have hm : (⟨i, j, L, 2 * k + 1⟩ : TopKey) ∈ ls := (hk.memT _).2 ⟨⟨hc.2.1, hc.2.2.1⟩, by have := hc.2.2.2.1; show 2 * k + 1 ≤ 2 * inp.nz; omega, hd,
      Or.inr (show (2 * k + 1) % 2 = 1 by omega)⟩
    obtain ⟨t, ht⟩ := List.mem_iff_getElem?.1 hm
    have hlt := (List.getElem?_eq_some_iff.1 ht).1
    obtain ⟨F, hF, e1, e2, e3⟩ := hk.top t _ ht
    refine ⟨ks.length + t, by omega, e1, (hk.topB h hok ht hc).2 ⟨rfl, rfl, rfl⟩, ?_⟩
    rw [e2, storedFace_nodes, e3, cornerRing_eq]
  · intro f f' hf hf' h1 h2 h3 h4
    obtain ⟨t, x, rfl, hx⟩ := hk.ofTop hf h1
    obtain ⟨t', x', rfl, hx'⟩ := hk.ofTop hf' h2
    obtain ⟨a1, a2, a3⟩ := (hk.topB h hok hx hc).1 h3
    obtain ⟨b1, b2, b3⟩ := (hk.topB h hok hx' hc).1 h4
    have m1 := ((hk.memT x).1 (List.mem_of_getElem? hx)).2.2.1
    have m2 := ((hk.memT x').1 (List.mem_of_getElem? hx')).2.2.1
    have : x = x' := by
      rw [a1, a2, a3] at m1
      rw [b1, b2, b3] at m2
      have e := above_unique m1 m2
      cases x; cases x'
      simp only at *
      subst a1 a2 a3 b1 b2 b3 e
      rfl
    rw [this] at hx
    rw [nodup_index hk.nodupT hx hx']

theorem GridOf.bottom (h : GridOf inp tol out s np start col fs ts qs gs) (hok : inp.Ok) {n i j k : Nat} (hc : out.IsCellAt inp n i j k) :
    (∃ f, f < out.grid.nf ∧ out.tag f = 2 ∧ (out.face f).a = n ∧ (out.face f).nodes = cornerRing (fun I J K => col I J (K + 1)) (inp.area < 0) i j k 1) ∧
    ∀ f f', f < out.grid.nf → f' < out.grid.nf → out.tag f = 2 → out.tag f' = 2 → (out.face f).a = n → (out.face f').a = n → f = f' := by
  obtain ⟨ks, ls, hk⟩ := h.keys
  obtain ⟨plist, hcols⟩ := h.columns
  have hs := h.solidAt hc
  have hnf := hk.nf
  constructor
  · obtain ⟨K, hK, hd⟩ := hcols.nextOf hc.2.1 hc.2.2.1 (by have := hc.2.2.2.1; omega) hs
    have hm : (⟨i, j, 2 * k + 1, K⟩ : TopKey) ∈ ls := (hk.memT _).2 ⟨⟨hc.2.1, hc.2.2.1⟩, hK, hd, Or.inl (show (2 * k + 1) % 2 = 1 by omega)⟩
    obtain ⟨t, ht⟩ := List.mem_iff_getElem?.1 hm
    have hlt := (List.getElem?_eq_some_iff.1 ht).1
    obtain ⟨F, hF, e1, e2, e3⟩ := hk.top t _ ht
    refine ⟨ks.length + t, by omega, e1, (hk.topA h hok ht hc).2 ⟨rfl, rfl, rfl⟩, ?_⟩
    rw [e2, storedFace_nodes, e3, cornerRing_eq, ring_between hd.1 hd.2.2.2]
  · intro f f' hf hf' h1 h2 h3 h4
    obtain ⟨t, x, rfl, hx⟩ := hk.ofTop hf h1
    obtain ⟨t', x', rfl, hx'⟩ := hk.ofTop hf' h2
    obtain ⟨a1, a2, a3⟩ := (hk.topA h hok hx hc).1 h3
    obtain ⟨b1, b2, b3⟩ := (hk.topA h hok hx' hc).1 h4
    have m1 := ((hk.memT x).1 (List.mem_of_getElem? hx)).2.2.1
    have m2 := ((hk.memT x').1 (List.mem_of_getElem? hx')).2.2.1
    have : x = x' := by
      rw [a1, a2, a3] at m1
      rw [b1, b2, b3] at m2
      have e := below_unique m1 m2
      cases x; cases x'
      simp only at *
      subst a1 a2 a3 b1 b2 b3 e
      rfl
    rw [this] at hx
    rw [nodup_index hk.nodupT hx hx']

theorem Columns.between {nx ny nz np : Nat} {plist : List Int} {act : Nat → Nat → Nat → Prop} (h : Columns nx ny nz np plist col act start) {X Y L K : Nat} (hX : X < 2 * nx)
    (hY : Y < 2 * ny) (hL : L ≤ K) (hK : K < 2 * nz + 2) : col X Y L ≤ col X Y K :=
  mono_le (n := 2 * nz + 2) (fun M hM => h.mono X Y M hX hY (by omega)) hL hK

theorem GridOf.stacked (h : GridOf inp tol out s np start col fs ts qs gs) (hok : inp.Ok) {n i j k n' i' j' k' : Nat} (hc : out.IsCellAt inp n i j k) (hc' : out.IsCellAt inp n' i' j' k') :
    ((∃ f, f < out.grid.nf ∧ out.tag f = 2 ∧ (out.face f).a = n ∧ (out.face f).b = n') ↔
      i = i' ∧ j = j' ∧ k < k' ∧ ∀ a b, a < 2 → b < 2 → col (2 * i + a) (2 * j + b) (2 * k + 1 + 1) = col (2 * i + a) (2 * j + b) (2 * k' + 1)) := by
  obtain ⟨ks, ls, hk⟩ := h.keys
  obtain ⟨plist, hcols⟩ := h.columns
  have hnf := hk.nf
  constructor
  · rintro ⟨f, hf, h1, h2, h3⟩
    obtain ⟨t, x, rfl, hx⟩ := hk.ofTop hf h1
    obtain ⟨a1, a2, a3⟩ := (hk.topA h hok hx hc).1 h2
    obtain ⟨b1, b2, b3⟩ := (hk.topB h hok hx hc').1 h3
    have m1 := ((hk.memT x).1 (List.mem_of_getElem? hx)).2.2.1
    rw [a1, a2, a3, b3] at m1
    have hr := ring_between m1.1 m1.2.2.2
    unfold ring at hr
    simp only [List.cons.injEq, and_true] at hr
    refine ⟨by omega, by omega, by have := m1.1; omega, ?_⟩
    intro a b ha hb
    have ea : a = 0 ∨ a = 1 := by omega
    have eb : b = 0 ∨ b = 1 := by omega
    rcases ea with rfl | rfl <;> rcases eb with rfl | rfl
    · exact hr.1
    · exact hr.2.2.2
    · exact hr.2.1
    · exact hr.2.2.1
  · rintro ⟨rfl, rfl, hkk, he⟩
    have hi := hc.2.1
    have hj := hc.2.2.1
    have hk' := hc'.2.2.2.1
    have hd : DirectlyAbove col i j (2 * k + 1) (2 * k' + 1) := by
      refine ⟨by omega, h.solidAt hc, h.solidAt hc', ?_⟩
      intro M h1 h2
      have key : ∀ a b, a < 2 → b < 2 → col (2 * i + a) (2 * j + b) M = col (2 * i + a) (2 * j + b) (M + 1) := by
        intro a b ha hb
        have e := he a b ha hb
        have g1 := hcols.between (X := 2 * i + a) (Y := 2 * j + b) (L := 2 * k + 1 + 1) (K := M) (by omega) (by omega) (by omega) (by omega)
        have g2 := hcols.between (X := 2 * i + a) (Y := 2 * j + b) (L := M) (K := M + 1) (by omega) (by omega) (by omega) (by omega)
        have g3 := hcols.between (X := 2 * i + a) (Y := 2 * j + b) (L := M + 1) (K := 2 * k' + 1) (by omega) (by omega) (by omega) (by omega)
        omega
      unfold Collapsed level
      simp only [List.cons.injEq, and_true]
      exact ⟨key 0 0 (by omega) (by omega), key 0 1 (by omega) (by omega), key 1 0 (by omega) (by omega), key 1 1 (by omega) (by omega)⟩
    have hm : (⟨i, j, 2 * k + 1, 2 * k' + 1⟩ : TopKey) ∈ ls :=
      (hk.memT _).2 ⟨⟨hi, hj⟩, by show 2 * k' + 1 ≤ 2 * inp.nz; omega, hd, Or.inl (show (2 * k + 1) % 2 = 1 by omega)⟩
    obtain ⟨t, ht⟩ := List.mem_iff_getElem?.1 hm
    have hlt := (List.getElem?_eq_some_iff.1 ht).1
    obtain ⟨F, hF, e1, e2, e3⟩ := hk.top t _ ht
    exact ⟨ks.length + t, by omega, e1, (hk.topA h hok ht hc).2 ⟨rfl, rfl, rfl⟩, (hk.topB h hok ht hc').2 ⟨rfl, rfl, rfl⟩⟩

/-! ### Faces between columns -/

/-- Depths on a range of numbers that increase there are part of depths that increase everywhere. -/
theorem extend_deeper (h : Nat → Rat) (lo hi : Nat) (hm : ∀ k l, lo ≤ k → k < l → l < hi → h k < h l) : ∃ g : Int → Rat, Deeper g ∧ ∀ k : Nat, lo ≤ k → k < hi → g k = h k := by
  rcases Nat.lt_or_ge lo hi with hl | hl
  · refine ⟨fun x => if x < lo then h lo - ((lo : Rat) - x) else if x < hi then h x.toNat else h (hi - 1) + (x - (hi : Rat) + 1), ?_, ?_⟩
    · intro x y hxy
      have hxy' : (x : Rat) < y := by exact_mod_cast hxy
      have hmono : ∀ k l, lo ≤ k → k ≤ l → l < hi → h k ≤ h l := by
        intro k l h1 h2 h3
        rcases Nat.lt_or_ge k l with h4 | h4
        · exact le_of_lt (hm k l h1 h4 h3)
        · rw [show k = l by omega]
      simp only
      by_cases x1 : x < lo
      · have x1' : (x : Rat) < lo := by exact_mod_cast x1
        rw [if_pos x1]
        by_cases y1 : y < lo
        · rw [if_pos y1]; linarith
        · rw [if_neg y1]
          by_cases y2 : y < hi
          · rw [if_pos y2]
            have := hmono lo y.toNat (Nat.le_refl _) (by omega) (by omega)
            linarith
          · rw [if_neg y2]
            have := hmono lo (hi - 1) (Nat.le_refl _) (by omega) (by omega)
            have y2' : ((hi : Nat) : Rat) ≤ y := by exact_mod_cast not_lt.1 y2
            linarith
      · rw [if_neg x1, if_neg (show ¬ y < lo by omega)]
        by_cases x2 : x < hi
        · rw [if_pos x2]
          by_cases y2 : y < hi
          · rw [if_pos y2]
            exact hm _ _ (by omega) (by omega) (by omega)
          · rw [if_neg y2]
            have := hmono x.toNat (hi - 1) (by omega) (by omega) (by omega)
            have y2' : ((hi : Nat) : Rat) ≤ y := by exact_mod_cast not_lt.1 y2
            linarith
        · rw [if_neg x2, if_neg (show ¬ y < hi by omega)]
          linarith
    · intro k h1 h2
      simp only
      rw [if_neg (by omega), if_pos (by omega)]
      rfl
  · exact ⟨_, deeper_cast, fun k h1 h2 => by omega⟩

theorem sideStack_p (dir r i j K : Nat) : (sideStack col dir r i j).p K = col (sideCols dir r i j).1.1 (sideCols dir r i j).1.2 K := by
  unfold sideStack sideCols; split <;> rfl

theorem sideStack_q (dir r i j K : Nat) : (sideStack col dir r i j).q K = col (sideCols dir r i j).2.1 (sideCols dir r i j).2.2 K := by
  unfold sideStack sideCols; split <;> rfl

theorem nextTo_iff {nx ny dir a b i j i' j' : Nat} (hp : IsPair nx ny dir a b) :
    (lowCol dir a b = some (i, j) ∧ highCol nx ny a b = some (i', j')) → NextTo dir i j i' j' ∧ a = i' ∧ b = j' := by
  rintro ⟨h1, h2⟩
  obtain ⟨g1, g2, g3⟩ := hp
  obtain ⟨_, _, rfl, rfl⟩ := highCol_lt h2
  refine ⟨?_, rfl, rfl⟩
  unfold lowCol at h1
  unfold NextTo
  split at h1 <;> split at h1 <;> cases h1 <;> omega

theorem nextTo_cols {nx ny dir i j i' j' : Nat} (h : NextTo dir i j i' j') (hi' : i' < nx) (hj' : j' < ny) :
    IsPair nx ny dir i' j' ∧ lowCol dir i' j' = some (i, j) ∧ highCol nx ny i' j' = some (i', j') := by
  unfold IsPair lowCol highCol
  rcases h with ⟨rfl, rfl, rfl⟩ | ⟨rfl, rfl, rfl⟩
  · refine ⟨⟨by omega, by omega, by omega⟩, ?_, if_pos ⟨hi', hj'⟩⟩
    rw [if_pos rfl, if_neg (by omega)]; rfl
  · refine ⟨⟨by omega, by omega, by omega⟩, ?_, if_pos ⟨hi', hj'⟩⟩
    rw [if_neg (by omega), if_neg (by omega)]; rfl

theorem low_eq {dir a b i j : Nat} (h : lowCol dir a b = some (i, j)) : lowStack col dir a b = sideStack col dir 1 i j := by
  unfold lowStack; rw [h]

theorem high_eq {nx ny dir a b i j : Nat} (h : highCol nx ny a b = some (i, j)) : highStack nx ny col dir a b = sideStack col dir 0 i j := by
  unfold highStack; rw [h]

/-- A cell that is not collapsed is active. -/
theorem Columns.activeOf {nx ny nz np : Nat} {plist : List Int} {act : Nat → Nat → Nat → Prop} (h : Columns nx ny nz np plist col act start) {i j k : Nat} (hi : i < nx) (hj : j < ny)
    (hk : k < nz) (hc : ¬ Collapsed col i j (2 * k + 1)) : act i j k := by
  by_contra hn
  apply hc
  have key : ∀ a b, a < 2 → b < 2 → col (2 * i + a) (2 * j + b) (2 * k + 1) = col (2 * i + a) (2 * j + b) (2 * k + 2) := by
    intro a b ha hb
    refine h.inactive _ _ k (by omega) (by omega) hk ?_
    rw [show (2 * i + a) / 2 = i by omega, show (2 * j + b) / 2 = j by omega]
    exact hn
  unfold Collapsed level
  simp only [List.cons.injEq, and_true]
  exact ⟨key 0 0 (by omega) (by omega), key 0 1 (by omega) (by omega), key 1 0 (by omega) (by omega), key 1 1 (by omega) (by omega)⟩

/-- Nodes of one pillar are in the order of depth, more than `tol` apart. -/
theorem PillarPoints.chain {pt : Nat → Pt} (h : PillarPoints inp s tol col start pt) (ht : 0 ≤ tol) {q : Nat} (hq : q < (inp.nx + 1) * (inp.ny + 1)) {k : Nat} (hk : start q ≤ k) :
    ∀ {l : Nat}, k < l → l < start (q + 1) → (s : Rat) * (pt k).z + tol < s * (pt l).z
  | 0, h1, _ => by omega
  | l + 1, h1, h2 => by
    have e := h.apart q l hq (by omega) h2
    rcases Nat.lt_or_ge k l with h3 | h3
    · have := h.chain ht hq hk h3 (by omega)
      linarith
    · rw [show k = l by omega]
      exact e

theorem pillarAt_lt {I J : Nat} (hI : I < 2 * inp.nx) (hJ : J < 2 * inp.ny) : pillarAt inp.nx I J < (inp.nx + 1) * (inp.ny + 1) := idx2_lt (by omega) (by omega)

/-- Both sides of a pair of pillars are on these pillars. -/
theorem sideCols_pillar {nx ny dir i j i' j' : Nat} (h : NextTo dir i j i' j') (hi : i < nx) (hj : j < ny) (hi' : i' < nx) (hj' : j' < ny) :
    pillarAt nx (sideCols dir 1 i j).1.1 (sideCols dir 1 i j).1.2 = pillarAt nx (sideCols dir 0 i' j').1.1 (sideCols dir 0 i' j').1.2 ∧
    pillarAt nx (sideCols dir 1 i j).2.1 (sideCols dir 1 i j).2.2 = pillarAt nx (sideCols dir 0 i' j').2.1 (sideCols dir 0 i' j').2.2 := by
  unfold sideCols pillarAt
  rcases h with ⟨rfl, rfl, rfl⟩ | ⟨rfl, rfl, rfl⟩
  · simp only [if_true]
    constructor <;> congr 1 <;> omega
  · simp only [one_ne_zero, if_false]
    constructor <;> congr 1 <;> first | omega | (congr 1; omega)

theorem sideCols_cell {dir r i j : Nat} (hr : r < 2) : ((sideCols dir r i j).1.1 / 2 = i ∧ (sideCols dir r i j).1.2 / 2 = j) ∧ ((sideCols dir r i j).2.1 / 2 = i ∧ (sideCols dir r i j).2.2 / 2 = j) := by
  unfold sideCols
  split <;> simp only <;> omega

/-- The layers overlap if and only if the sides have a part in common. -/
theorem GridOf.meet (h : GridOf inp tol out s np start col fs ts qs gs) (ht : 0 ≤ tol) {dir i j k i' j' k' : Nat} (hn : NextTo dir i j i' j') (hi : i < inp.nx) (hj : j < inp.ny)
    (hk : k < inp.nz) (hi' : i' < inp.nx) (hj' : j' < inp.ny) (hk' : k' < inp.nz) (ha : inp.Active i j k) (ha' : inp.Active i' j' k') :
    ∃ hp hq, Deeper hp ∧ Deeper hq ∧ (Overlap (sideStack col dir 1 i j) (sideStack col dir 0 i' j') hp hq (2 * k + 1) (2 * k' + 1) ↔
      SidesMeet (fun I J K => s * (ptOf out.coords (col I J (K + 1)).toNat).z) dir i j k i' j' k') := by
  have hpil := sideCols_pillar hn hi hj hi' hj'
  have hcorner : ∀ I J K, I / 2 < inp.nx → J / 2 < inp.ny → K / 2 < inp.nz → inp.Active (I / 2) (J / 2) (K / 2) → ∃ m : Nat, col I J (K + 1) = m ∧
      start (pillarAt inp.nx I J) ≤ m ∧ m < start (pillarAt inp.nx I J + 1) := by
    intro I J K h1 h2 h3 h4
    obtain ⟨m, e1, e2, e3, _⟩ := h.points.corner I J K (by omega) (by omega) (by omega) h4
    exact ⟨m, e1, e2, e3⟩
  have cA := sideCols_cell (dir := dir) (r := 1) (i := i) (j := j) (by omega)
  have cB := sideCols_cell (dir := dir) (r := 0) (i := i') (j := j') (by omega)
  have oA : ∀ K, K / 2 = k → (∃ m : Nat, col (sideCols dir 1 i j).1.1 (sideCols dir 1 i j).1.2 (K + 1) = m ∧ start (pillarAt inp.nx (sideCols dir 1 i j).1.1 (sideCols dir 1 i j).1.2) ≤ m ∧
      m < start (pillarAt inp.nx (sideCols dir 1 i j).1.1 (sideCols dir 1 i j).1.2 + 1)) ∧
      (∃ m : Nat, col (sideCols dir 1 i j).2.1 (sideCols dir 1 i j).2.2 (K + 1) = m ∧ start (pillarAt inp.nx (sideCols dir 1 i j).2.1 (sideCols dir 1 i j).2.2) ≤ m ∧
      m < start (pillarAt inp.nx (sideCols dir 1 i j).2.1 (sideCols dir 1 i j).2.2 + 1)) := by
    rintro K rfl
    exact ⟨hcorner _ _ K (by rw [cA.1.1]; exact hi) (by rw [cA.1.2]; exact hj) hk (by rw [cA.1.1, cA.1.2]; exact ha),
      hcorner _ _ K (by rw [cA.2.1]; exact hi) (by rw [cA.2.2]; exact hj) hk (by rw [cA.2.1, cA.2.2]; exact ha)⟩
  have oB : ∀ K, K / 2 = k' → (∃ m : Nat, col (sideCols dir 0 i' j').1.1 (sideCols dir 0 i' j').1.2 (K + 1) = m ∧ start (pillarAt inp.nx (sideCols dir 1 i j).1.1 (sideCols dir 1 i j).1.2) ≤ m ∧
      m < start (pillarAt inp.nx (sideCols dir 1 i j).1.1 (sideCols dir 1 i j).1.2 + 1)) ∧
      (∃ m : Nat, col (sideCols dir 0 i' j').2.1 (sideCols dir 0 i' j').2.2 (K + 1) = m ∧ start (pillarAt inp.nx (sideCols dir 1 i j).2.1 (sideCols dir 1 i j).2.2) ≤ m ∧
      m < start (pillarAt inp.nx (sideCols dir 1 i j).2.1 (sideCols dir 1 i j).2.2 + 1)) := by
    rintro K rfl
    rw [hpil.1, hpil.2]
    exact ⟨hcorner _ _ K (by rw [cB.1.1]; exact hi') (by rw [cB.1.2]; exact hj') hk' (by rw [cB.1.1, cB.1.2]; exact ha'),
      hcorner _ _ K (by rw [cB.2.1]; exact hi') (by rw [cB.2.2]; exact hj') hk' (by rw [cB.2.1, cB.2.2]; exact ha')⟩
  have q1 : pillarAt inp.nx (sideCols dir 1 i j).1.1 (sideCols dir 1 i j).1.2 < (inp.nx + 1) * (inp.ny + 1) := pillarAt_lt (by have := cA.1.1; omega) (by have := cA.1.2; omega)
  have q2 : pillarAt inp.nx (sideCols dir 1 i j).2.1 (sideCols dir 1 i j).2.2 < (inp.nx + 1) * (inp.ny + 1) := pillarAt_lt (by have := cA.2.1; omega) (by have := cA.2.2; omega)
  obtain ⟨hp, dp, ep⟩ := extend_deeper (fun m => (s : Rat) * (ptOf out.coords m).z) (start (pillarAt inp.nx (sideCols dir 1 i j).1.1 (sideCols dir 1 i j).1.2))
    (start (pillarAt inp.nx (sideCols dir 1 i j).1.1 (sideCols dir 1 i j).1.2 + 1)) (fun a b h1 h2 h3 => by
      have := h.points.chain ht q1 h1 h2 h3
      linarith)
  obtain ⟨hq, dq, eq⟩ := extend_deeper (fun m => (s : Rat) * (ptOf out.coords m).z) (start (pillarAt inp.nx (sideCols dir 1 i j).2.1 (sideCols dir 1 i j).2.2))
    (start (pillarAt inp.nx (sideCols dir 1 i j).2.1 (sideCols dir 1 i j).2.2 + 1)) (fun a b h1 h2 h3 => by
      have := h.points.chain ht q2 h1 h2 h3
      linarith)
  refine ⟨hp, hq, dp, dq, ?_⟩
  unfold Overlap Stack.Inside Stack.depth SidesMeet Meet
  simp only [sideStack_p, sideStack_q]
  obtain ⟨⟨m1, a1, b1, c1⟩, ⟨m2, a2, b2, c2⟩⟩ := oA (2 * k) (by omega)
  obtain ⟨⟨m3, a3, b3, c3⟩, ⟨m4, a4, b4, c4⟩⟩ := oA (2 * k + 1) (by omega)
  obtain ⟨⟨m5, a5, b5, c5⟩, ⟨m6, a6, b6, c6⟩⟩ := oB (2 * k') (by omega)
  obtain ⟨⟨m7, a7, b7, c7⟩, ⟨m8, a8, b8, c8⟩⟩ := oB (2 * k' + 1) (by omega)
  rw [a1, a2, a3, a4, a5, a6, a7, a8, ep m1 b1 c1, eq m2 b2 c2, ep m3 b3 c3, eq m4 b4 c4, ep m5 b5 c5, eq m6 b6 c6, ep m7 b7 c7, eq m8 b8 c8]
  simp only [Int.toNat_natCast, and_assoc]

theorem GridOf.sidesMeet (h : GridOf inp tol out s np start col fs ts qs gs) (hok : inp.Ok) (ht : 0 ≤ tol) {dir n i j k n' i' j' k' : Nat} (hd : dir < 2) (hc : out.IsCellAt inp n i j k)
    (hc' : out.IsCellAt inp n' i' j' k') :
    ((∃ f, f < out.grid.nf ∧ out.tag f = dir ∧ (out.face f).a = n ∧ (out.face f).b = n') ↔
      NextTo dir i j i' j' ∧ SidesMeet (fun I J K => s * (ptOf out.coords (col I J (K + 1)).toNat).z) dir i j k i' j' k') := by
  obtain ⟨ks, ls, hk⟩ := h.keys
  obtain ⟨plist, hcols⟩ := h.columns
  have hnf := hk.nf
  have ha := hcols.activeOf hc.2.1 hc.2.2.1 hc.2.2.2.1 (h.solidAt hc)
  have ha' := hcols.activeOf hc'.2.1 hc'.2.2.1 hc'.2.2.2.1 (h.solidAt hc')
  have hk1 := hc.2.2.2.1
  have hk2 := hc'.2.2.2.1
  constructor
  · rintro ⟨f, hf, h1, h2, h3⟩
    obtain ⟨x, hx, hxd⟩ := hk.ofSide hf (by omega)
    obtain ⟨a1, a2⟩ := (hk.sideA h hok hx hc).1 h2
    obtain ⟨b1, b2⟩ := (hk.sideB h hok hx hc').1 h3
    have hpair := ((hk.memS x _ _ deeper_cast deeper_cast).1 (List.mem_of_getElem? hx)).1
    rw [hxd, h1] at hpair a1
    have hnt := (nextTo_iff hpair ⟨a1, b1⟩).1
    refine ⟨hnt, ?_⟩
    obtain ⟨hp, hq, dp, dq, e⟩ := h.meet ht hnt hc.2.1 hc.2.2.1 hk1 hc'.2.1 hc'.2.2.1 hk2 ha ha'
    rw [← e]
    have hov := ((hk.memS x hp hq dp dq).1 (List.mem_of_getElem? hx)).2.2.2.2
    rw [hxd, h1, low_eq a1, high_eq b1, a2, b2] at hov
    exact hov
  · rintro ⟨hnt, hm⟩
    obtain ⟨hp, hq, dp, dq, e⟩ := h.meet ht hnt hc.2.1 hc.2.2.1 hk1 hc'.2.1 hc'.2.2.1 hk2 ha ha'
    rw [← e] at hm
    obtain ⟨hpair, e1, e2⟩ := nextTo_cols hnt hc'.2.1 hc'.2.2.1
    have hmem : (⟨dir, i', j', 2 * k + 1, 2 * k' + 1⟩ : SideKey) ∈ ks := by
      refine (hk.memS _ hp hq dp dq).2 ⟨hpair, by show 2 * k + 1 < _; omega, by show 2 * k' + 1 < _; omega, Or.inl (show (2 * k + 1) % 2 = 1 by omega), ?_⟩
      simp only
      rw [low_eq e1, high_eq e2]
      exact hm
    obtain ⟨t, htk⟩ := List.mem_iff_getElem?.1 hmem
    have hlt := (List.getElem?_eq_some_iff.1 htk).1
    obtain ⟨F, hF, g1, g2, g3⟩ := hk.side t _ htk
    exact ⟨t, by omega, g1, (hk.sideA h hok htk hc).2 ⟨e1, rfl⟩, (hk.sideB h hok htk hc').2 ⟨e2, rfl⟩⟩

/-! ### The other parts -/

theorem GridOf.isCell (h : GridOf inp tol out s np start col fs ts qs gs) {n : Nat} (hn : n < out.numCells) : ∃ i j k, out.IsCellAt inp n i j k := by
  have hlt : n < (solidCells inp.nx inp.ny inp.nz col).length := by rw [← h.numCells]; exact hn
  have hm := List.getElem_mem hlt
  obtain ⟨hc, _⟩ := mem_solid.1 hm
  obtain ⟨i, j, k, hi, hj, hk, e⟩ := cartesian_surj hc
  refine ⟨i, j, k, hn, hi, hj, hk, ?_⟩
  rw [take_getElem? h.cells hn, List.getElem?_map, List.getElem?_eq_getElem hlt, e]
  rfl

theorem overlap_self {A : Stack} {n : Nat} (hA : A.Ok n) {hp hq : Int → Rat} (h1 : Deeper hp) (h2 : Deeper hq) {K L : Nat} (hK : K < n - 1) (hL : L < n - 1) (h : Overlap A A hp hq K L) : K = L := by
  obtain ⟨t, z, t0, t1, a, b⟩ := h
  rcases Nat.lt_trichotomy K L with hl | hl | hl
  · have := depth_mono hA h1 h2 t0 t1 (show K + 1 ≤ L by omega) (by omega)
    have := a.2; have := b.1
    linarith
  · exact hl
  · have := depth_mono hA h1 h2 t0 t1 (show L + 1 ≤ K by omega) (by omega)
    have := b.2; have := a.1
    linarith

theorem cellIn_none {nx ny : Nat} (v : Int) : cellIn nx ny none v = -1 := rfl

theorem cellIn_cell {nx ny a b K : Nat} (hK : IsCell K) : cellIn nx ny (some (a, b)) (cellNumber K) = (cartesian nx ny a b (K / 2) : Nat) := by
  unfold cellIn cellNumber
  simp only
  rw [if_pos hK, if_neg (by omega)]
  unfold cartesian
  push_cast
  rfl

theorem cellIn_gap {nx ny a b K : Nat} (hK : ¬ IsCell K) : cellIn nx ny (some (a, b)) (cellNumber K) = -1 := by
  unfold cellIn cellNumber
  simp only
  rw [if_neg hK, if_pos rfl]

/-- The two sides of a face between columns are different. -/
theorem GridOf.sideDiffer (h : GridOf inp tol out s np start col fs ts qs gs) (hok : inp.Ok) {ks : List SideKey} {ls : List TopKey} (hk : Keys inp out col fs gs ks ls) {x : SideKey}
    (hx : x ∈ ks) {F : Face} (he : x.IsOf inp.nx inp.ny F) : F.a ≠ F.b := by
  obtain ⟨plist, hcols⟩ := h.columns
  obtain ⟨hpair, hK, hL, hcell, hov⟩ := (hk.memS x _ _ deeper_cast deeper_cast).1 hx
  obtain ⟨g1, g2, g3⟩ := hpair
  rw [he.1, he.2]
  cases e1 : lowCol x.dir x.i x.j with
  | none =>
    have e2 : highCol inp.nx inp.ny x.i x.j = some (x.i, x.j) := by
      unfold highCol
      refine if_pos ?_
      have h1 := hok.nx
      have h2 := hok.ny
      unfold lowCol at e1
      split at e1 <;> split at e1 <;> first | omega | cases e1
    rw [high_eq e2] at hov
    unfold lowStack at hov
    rw [e1] at hov
    have hh := highCol_lt e2
    have := overlap_self (hcols.sideOk (dir := x.dir) (s := 0) (by omega) hh.1 hh.2.1) deeper_cast deeper_cast (show x.K < 2 * inp.nz + 2 - 1 by omega) (show x.L < 2 * inp.nz + 2 - 1 by omega) hov
    rw [this, or_self] at hcell
    rw [e2, cellIn_none, cellIn_cell hcell]
    omega
  | some ab =>
    obtain ⟨a, b⟩ := ab
    have hlow := lowCol_lt ⟨g1, g2, g3⟩ e1
    cases e2 : highCol inp.nx inp.ny x.i x.j with
    | none =>
      unfold highStack at hov
      rw [e2] at hov
      simp only at hov
      have := overlap_self (hcols.lowOk hok.nx hok.ny ⟨g1, g2, g3⟩) deeper_cast deeper_cast (show x.K < 2 * inp.nz + 2 - 1 by omega) (show x.L < 2 * inp.nz + 2 - 1 by omega) hov
      rw [← this, or_self] at hcell
      rw [cellIn_none, cellIn_cell hcell]
      omega
    | some cd =>
      obtain ⟨c, d⟩ := cd
      have hhigh := highCol_lt e2
      by_cases c1 : IsCell x.K
      · rw [cellIn_cell c1]
        by_cases c2 : IsCell x.L
        · rw [cellIn_cell c2]
          intro e
          obtain ⟨f1, f2, _⟩ := cartesian_inj hlow.1 hlow.2 hhigh.1 hhigh.2.1 (by exact_mod_cast e)
          have := (nextTo_iff ⟨g1, g2, g3⟩ ⟨e1, e2⟩).1
          unfold NextTo at this
          omega
        · rw [cellIn_gap c2]; omega
      · rw [cellIn_gap c1, cellIn_cell (hcell.resolve_left c1)]; omega

theorem GridOf.rangeOk (h : GridOf inp tol out s np start col fs ts qs gs) (hok : inp.Ok) {f : Nat} (hf : f < out.grid.nf) :
    (-1 ≤ (out.face f).a ∧ (out.face f).a < out.numCells) ∧ (-1 ≤ (out.face f).b ∧ (out.face f).b < out.numCells) ∧ (out.face f).a ≠ (out.face f).b := by
  obtain ⟨ks, ls, hk⟩ := h.keys
  have key : ∀ F, (F ∈ fs ∨ F ∈ gs) → out.face f = storedFace inp col F → F.a ≠ F.b →
      (-1 ≤ (out.face f).a ∧ (out.face f).a < out.numCells) ∧ (-1 ≤ (out.face f).b ∧ (out.face f).b < out.numCells) ∧ (out.face f).a ≠ (out.face f).b := by
    intro F hF e hne
    have hg := good_mem (h.good hok F hF)
    rw [e, storedFace_a, storedFace_b, h.numCells]
    have r1 := compressed_range hg.1
    have r2 := compressed_range hg.2
    refine ⟨by omega, by omega, fun hc => hne (compressed_inj hg.1 hg.2 hc)⟩
  rcases hk.cases hf with ⟨x, hx⟩ | ⟨t, x, rfl, hx⟩
  · obtain ⟨F, hF, _, e, he⟩ := hk.side f x hx
    exact key F (Or.inl hF) e (h.sideDiffer hok hk (List.mem_of_getElem? hx) he)
  · obtain ⟨F, hF, _, e, he⟩ := hk.top t x hx
    refine key F (Or.inr hF) e ?_
    obtain ⟨⟨hi, hj⟩, _, hd, hcell⟩ := (hk.memT x).1 (List.mem_of_getElem? hx)
    rw [he]
    simp only
    by_cases c1 : IsCell x.K
    · have c1' : x.K % 2 = 1 := c1
      have e1 : layerCell inp.nx inp.ny x.i x.j x.K = (cartesian inp.nx inp.ny x.i x.j (x.K / 2) : Nat) := if_pos c1
      rw [e1]
      intro hh
      have := (layerCell_eq hi hj hi hj).1 hh
      have := hd.1
      omega
    · have c2 := hcell.resolve_right c1
      unfold layerCell
      rw [if_neg c1, if_pos c2]
      omega

theorem GridOf.simpleOk (h : GridOf inp tol out s np start col fs ts qs gs) (hok : inp.Ok) {f : Nat} (hf : f < out.grid.nf) (ht : out.tag f < 2) :
    (out.face f).nodes.Nodup ∧ 3 ≤ (out.face f).nodes.length ∧ (out.face f).nodes.length ≤ 6 := by
  obtain ⟨ks, ls, hk⟩ := h.keys
  obtain ⟨plist, hcols⟩ := h.columns
  obtain ⟨x, hx, _⟩ := hk.ofSide hf ht
  obtain ⟨F, hF, _, e, _⟩ := hk.side f x hx
  have := side_simple hcols hok.nx hok.ny h.sides (fun c hc => mem_pairs hc) F hF
  rw [e, storedFace_nodes]
  split
  · rw [List.nodup_reverse, List.length_reverse]; exact this
  · exact this

/-- Points of horizontal faces are nodes on pillars. -/
theorem GridOf.topNode (h : GridOf inp tol out s np start col fs ts qs gs) {i j L K : Nat} (hi : i < inp.nx) (hj : j < inp.ny) (hK : K ≤ 2 * inp.nz) (hd : DirectlyAbove col i j L K)
    (hc : IsCell L ∨ IsCell K) {a b : Nat} (ha : a < 2) (hb : b < 2) : 0 ≤ col (2 * i + a) (2 * j + b) K ∧ col (2 * i + a) (2 * j + b) K < np := by
  obtain ⟨plist, hcols⟩ := h.columns
  have hX : 2 * i + a < 2 * inp.nx := by omega
  have hY : 2 * j + b < 2 * inp.ny := by omega
  have hL := hd.1
  have hmin : intMin < col (2 * i + a) (2 * j + b) K := by
    have one : ∀ M, M ≤ K → IsCell M → ¬ Collapsed col i j M → intMin < col (2 * i + a) (2 * j + b) K := by
      intro M h1 h2 h3
      have h2' : M % 2 = 1 := h2
      have hact := hcols.activeOf (k := M / 2) hi hj (by omega) (by rw [show 2 * (M / 2) + 1 = M by omega]; exact h3)
      have := (hcols.active (2 * i + a) (2 * j + b) (M / 2) hX hY (by omega) (by rw [show (2 * i + a) / 2 = i by omega, show (2 * j + b) / 2 = j by omega]; exact hact)).1
      rw [show 2 * (M / 2) + 1 = M by omega] at this
      have := hcols.between hX hY h1 (by omega)
      omega
    rcases hc with hc | hc
    · exact one L (by omega) hc hd.2.1
    · exact one K (Nat.le_refl _) hc hd.2.2.1
  have hmax := hcols.below _ _ K hX hY (by omega)
  rcases hcols.number _ _ K hX hY (by omega) with e | e | ⟨m, e, h1, h2⟩
  · omega
  · omega
  · have h3 := start_mono hcols.mono' (show pillarAt inp.nx (2 * i + a) (2 * j + b) + 1 ≤ (inp.nx + 1) * (inp.ny + 1) from pillarAt_lt hX hY) (Nat.le_refl _)
    rw [hcols.total] at h3
    unfold pillarAt at h3
    omega

theorem GridOf.pointsOk (h : GridOf inp tol out s np start col fs ts qs gs) (hok : inp.Ok) {f : Nat} (hf : f < out.grid.nf) : ∀ p ∈ (out.face f).nodes, 0 ≤ p ∧ p < out.grid.nn := by
  obtain ⟨ks, ls, hk⟩ := h.keys
  obtain ⟨plist, hcols⟩ := h.columns
  have key : ∀ F, out.face f = storedFace inp col F → (∀ p ∈ F.nodes, 0 ≤ p ∧ p < out.grid.nn) → ∀ p ∈ (out.face f).nodes, 0 ≤ p ∧ p < out.grid.nn := by
    intro F e hp p hpf
    rw [e, storedFace_nodes] at hpf
    split at hpf
    · exact hp p (List.mem_reverse.1 hpf)
    · exact hp p hpf
  rcases hk.cases hf with ⟨x, hx⟩ | ⟨t, x, rfl, hx⟩
  · obtain ⟨F, hF, _, e, he⟩ := hk.side f x hx
    refine key F e ?_
    rw [h.numNodes]
    exact side_points hcols hok.nx hok.ny h.sides (fun c hc => mem_pairs hc) F hF
  · obtain ⟨F, hF, _, e, he⟩ := hk.top t x hx
    refine key F e ?_
    obtain ⟨⟨hi, hj⟩, hK, hd, hcell⟩ := (hk.memT x).1 (List.mem_of_getElem? hx)
    rw [he, h.numNodes]
    have n00 := h.topNode hi hj hK hd hcell (a := 0) (b := 0) (by omega) (by omega)
    have n10 := h.topNode hi hj hK hd hcell (a := 1) (b := 0) (by omega) (by omega)
    have n11 := h.topNode hi hj hK hd hcell (a := 1) (b := 1) (by omega) (by omega)
    have n01 := h.topNode hi hj hK hd hcell (a := 0) (b := 1) (by omega) (by omega)
    simp only [Nat.add_zero] at n00 n10 n11 n01
    intro p hp
    unfold ring at hp
    simp only [List.mem_cons, List.not_mem_nil, or_false] at hp
    rcases hp with rfl | rfl | rfl | rfl <;> push_cast <;> omega

theorem GridOf.crossingOk (h : GridOf inp tol out s np start col fs ts qs gs) (hok : inp.Ok) (ht : 0 ≤ tol) {k : Nat} (h1 : out.grid.np ≤ k) (h2 : k < out.grid.nn) :
    ∃ k0 k1 k2 k3, k0 < out.grid.np ∧ k1 < out.grid.np ∧ k2 < out.grid.np ∧ k3 < out.grid.np ∧
    CrossPoint (ptOf out.coords k0) (ptOf out.coords k1) (ptOf out.coords k2) (ptOf out.coords k3) (ptOf out.coords k) := by
  obtain ⟨plist, hcols⟩ := h.columns
  rw [h.onPillars] at h1
  rw [h.numNodes] at h2
  have hlt : k - np < qs.length := by omega
  obtain ⟨k0, k1, k2, k3, e, a0, a1, a2, a3, _⟩ := side_quads (pt := fun m => ⟨0, 0, (s : Rat) * (ptOf out.coords m).z⟩) hcols hok.nx hok.ny (by
    intro q a b hq g1 g2 g3
    have := h.points.chain ht hq g1 g2 g3
    simp only
    linarith) h.sides (fun c hc => mem_pairs hc) _ (List.getElem_mem hlt)
  have := h.crossings (k - np) k0 k1 k2 k3 (by rw [List.getElem?_eq_getElem hlt, e])
  rw [show np + (k - np) = k by omega] at this
  rw [h.onPillars]
  exact ⟨k0, k1, k2, k3, a0, a1, a2, a3, this⟩

theorem GridOf.onceOk (h : GridOf inp tol out s np start col fs ts qs gs) (hok : inp.Ok) {f f' : Nat} (hf : f < out.grid.nf) (hf' : f' < out.grid.nf) (ht : out.tag f = out.tag f')
    (ha : (out.face f).a = (out.face f').a) (hb : (out.face f).b = (out.face f').b) (na : (out.face f).a ≠ -1) (nb : (out.face f).b ≠ -1) : f = f' := by
  obtain ⟨r1, r2, _⟩ := h.rangeOk hok hf
  obtain ⟨i, j, k, hc⟩ := h.isCell (n := (out.face f).a.toNat) (by omega)
  obtain ⟨i', j', k', hc'⟩ := h.isCell (n := (out.face f).b.toNat) (by omega)
  have ea : (out.face f).a = (((out.face f).a.toNat : Nat) : Int) := by omega
  have eb : (out.face f).b = (((out.face f).b.toNat : Nat) : Int) := by omega
  obtain ⟨ks, ls, hk⟩ := h.keys
  have hcases : out.tag f < 2 ∨ out.tag f = 2 := by
    rcases hk.cases hf with ⟨x, hx⟩ | ⟨t, x, rfl, hx⟩
    · obtain ⟨F, hF, e, _⟩ := hk.side f x hx
      have := ((hk.memS x _ _ deeper_cast deeper_cast).1 (List.mem_of_getElem? hx)).1.1
      omega
    · obtain ⟨F, hF, e, _⟩ := hk.top t x hx
      exact Or.inr e
  rcases hcases with hl | hl
  · obtain ⟨x, hx, hd⟩ := hk.ofSide hf hl
    obtain ⟨y, hy, hd'⟩ := hk.ofSide hf' (by omega)
    obtain ⟨a1, a2⟩ := (hk.sideA h hok hx hc).1 ea
    obtain ⟨b1, b2⟩ := (hk.sideB h hok hx hc').1 eb
    obtain ⟨c1, c2⟩ := (hk.sideA h hok hy hc).1 (ha ▸ ea)
    obtain ⟨d1, d2⟩ := (hk.sideB h hok hy hc').1 (hb ▸ eb)
    have p1 := highCol_lt b1
    have p2 := highCol_lt d1
    have : x = y := by
      cases x; cases y
      simp only at *
      congr 1 <;> omega
    rw [this] at hx
    exact nodup_index hk.nodupS hx hy
  · exact (h.bottom hok hc).2 f f' hf hf' hl (by omega) ea (ha ▸ ea)

/-- Everything that is specified of a processed grid. -/
theorem GridOf.processed (h : GridOf inp tol out s np start col fs ts qs gs) (hok : inp.Ok) (ht : 0 ≤ tol) (hs : ∀ I J, I < 2 * inp.nx → J < 2 * inp.ny → inp.Sorted s I J) :
    Processed inp s tol out (fun I J K => col I J (K + 1)) := by
  obtain ⟨plist, hcols⟩ := h.columns
  have hs1 : s = 1 ∨ s = -1 := h.sign.imp (fun x => x.1) (fun x => x.1)
  have hnp : ∀ {I J m}, I < 2 * inp.nx → J < 2 * inp.ny → m < start (pillarAt inp.nx I J + 1) → m < np := by
    intro I J m hI hJ hm
    have h3 := start_mono hcols.mono' (show pillarAt inp.nx I J + 1 ≤ (inp.nx + 1) * (inp.ny + 1) from pillarAt_lt hI hJ) (Nat.le_refl _)
    rw [hcols.total] at h3
    omega
  refine ⟨?_, ?_, ?_, ?_, ?_, ?_, fun f hf => h.rangeOk hok hf, fun f hf => h.pointsOk hok hf, fun f hf hl => h.simpleOk hok hf hl, fun n i j k hc => h.top hok hc,
    fun n i j k hc => h.bottom hok hc, fun n i j k n' i' j' k' hc hc' => h.stacked hok hc hc', fun dir n i j k n' i' j' k' hd hc hc' => h.sidesMeet hok ht hd hc hc',
    fun f f' hf hf' e1 e2 e3 e4 e5 => h.onceOk hok hf hf' e1 e2 e3 e4 e5, fun k h1 h2 => h.crossingOk hok ht h1 h2⟩
  · rintro I J K ⟨hI, hJ, hK, ha⟩
    obtain ⟨m, e, h1, h2, h3⟩ := h.points.corner I J K hI hJ hK ha
    obtain ⟨d1, d2, _⟩ := h3 (hs I J hI hJ)
    have := hnp hI hJ h2
    refine ⟨m, e, by rw [h.onPillars]; exact this, by rw [h.numNodes]; omega, d1, d2, h.points.line _ m (pillarAt_lt hI hJ) h1 h2⟩
  · rintro I J K I' J' K' ⟨hI, hJ, hK, ha⟩ ⟨hI', hJ', hK', ha'⟩ hp hz
    obtain ⟨m, e, h1, h2, h3⟩ := h.points.corner I J K hI hJ hK ha
    obtain ⟨m', e', h1', h2', h3'⟩ := h.points.corner I' J' K' hI' hJ' hK' ha'
    obtain ⟨d1, d2, d3⟩ := h3 (hs I J hI hJ)
    obtain ⟨d1', d2', d3'⟩ := h3' (hs I' J' hI' hJ')
    rw [← hp] at h1' h2' d3'
    rw [← hz] at d1' d2' d3'
    rw [e, e']
    rcases Nat.lt_trichotomy m m' with hl | hl | hl
    · exfalso
      have := d3' m h1 hl
      rcases hs1 with rfl | rfl <;> push_cast at this <;> linarith
    · rw [hl]
    · exfalso
      have := d3 m' h1' hl
      rcases hs1 with rfl | rfl <;> push_cast at this <;> linarith
  · rintro I J K I' J' K' ⟨hI, hJ, hK, ha⟩ ⟨hI', hJ', hK', ha'⟩ he
    obtain ⟨m, e, h1, h2, _⟩ := h.points.corner I J K hI hJ hK ha
    obtain ⟨m', e', h1', h2', _⟩ := h.points.corner I' J' K' hI' hJ' hK' ha'
    rw [e, e'] at he
    have hmm : m = m' := by exact_mod_cast he
    subst hmm
    have q1 := pillarAt_lt hI hJ
    have q2 := pillarAt_lt hI' hJ'
    rcases Nat.lt_trichotomy (pillarAt inp.nx I J) (pillarAt inp.nx I' J') with hl | hl | hl
    · have := start_mono hcols.mono' (show pillarAt inp.nx I J + 1 ≤ pillarAt inp.nx I' J' by omega) (by omega)
      omega
    · exact hl
    · have := start_mono hcols.mono' (show pillarAt inp.nx I' J' + 1 ≤ pillarAt inp.nx I J by omega) (by omega)
      omega
  · rintro I J K I' J' K' ⟨hI, hJ, hK, ha⟩ ⟨hI', hJ', hK', ha'⟩ hp hlt
    obtain ⟨m, e, h1, h2, _⟩ := h.points.corner I J K hI hJ hK ha
    obtain ⟨m', e', h1', h2', _⟩ := h.points.corner I' J' K' hI' hJ' hK' ha'
    rw [e, e'] at hlt ⊢
    rw [← hp] at h2'
    simp only [Int.toNat_natCast]
    exact h.points.chain ht (pillarAt_lt hI hJ) h1 (by omega) h2'
  · rw [h.cells, List.pairwise_map]
    refine List.Pairwise.imp ?_ (List.pairwise_lt_range.filter _)
    intro a b hab
    exact_mod_cast hab
  · intro c
    rw [h.cells, List.mem_map]
    constructor
    · rintro ⟨d, hd, rfl⟩
      obtain ⟨hc, hsol⟩ := mem_solid.1 hd
      obtain ⟨i, j, k, hi, hj, hk, rfl⟩ := cartesian_surj hc
      rw [solid_cartesian hi hj] at hsol
      refine ⟨i, j, k, hi, hj, hk, rfl, hcols.activeOf hi hj hk hsol, ?_⟩
      by_contra hn
      apply hsol
      have key : ∀ a b, a < 2 → b < 2 → col (2 * i + a) (2 * j + b) (2 * k + 1) = col (2 * i + a) (2 * j + b) (2 * k + 1 + 1) := by
        intro a b ha hb
        by_contra hne
        exact hn ⟨a, b, ha, hb, hne⟩
      unfold Collapsed level
      simp only [List.cons.injEq, and_true]
      exact ⟨key 0 0 (by omega) (by omega), key 0 1 (by omega) (by omega), key 1 0 (by omega) (by omega), key 1 1 (by omega) (by omega)⟩
    · rintro ⟨i, j, k, hi, hj, hk, rfl, _, a, b, ha, hb, hne⟩
      refine ⟨_, mem_solid.2 ⟨cartesian_lt hi hj hk, ?_⟩, rfl⟩
      rw [solid_cartesian hi hj]
      intro hcol
      apply hne
      unfold Collapsed level at hcol
      simp only [List.cons.injEq, and_true] at hcol
      have ea : a = 0 ∨ a = 1 := by omega
      have eb : b = 0 ∨ b = 1 := by omega
      rcases ea with rfl | rfl <;> rcases eb with rfl | rfl
      · exact hcol.1
      · exact hcol.2.1
      · exact hcol.2.2.1
      · exact hcol.2.2.2

theorem Input.Good.downward (h : inp.Good s) : inp.Downward s := by
  intro I J K hI hJ hK ha ha'
  exact h.sorted I J hI hJ K (K + 1) (by omega) (by omega) ha ha'

/-- Depths of a thick cell do not both increase and decrease. -/
theorem Input.Good.one (h : inp.Good s) : ¬ (inp.Downward 1 ∧ inp.Downward (-1)) := by
  rintro ⟨h1, h2⟩
  obtain ⟨i, j, k, hi, hj, hk, ha, a, b, ha2, hb2, hne⟩ := h.thick
  apply hne
  have hact : inp.Active ((2 * i + a) / 2) ((2 * j + b) / 2) (2 * k / 2) := by
    rw [show (2 * i + a) / 2 = i by omega, show (2 * j + b) / 2 = j by omega, show 2 * k / 2 = k by omega]; exact ha
  have hact' : inp.Active ((2 * i + a) / 2) ((2 * j + b) / 2) ((2 * k + 1) / 2) := by
    rw [show (2 * i + a) / 2 = i by omega, show (2 * j + b) / 2 = j by omega, show (2 * k + 1) / 2 = k by omega]; exact ha
  have e1 := h1 (2 * i + a) (2 * j + b) (2 * k) (by omega) (by omega) (by omega) hact hact'
  have e2 := h2 (2 * i + a) (2 * j + b) (2 * k) (by omega) (by omega) (by omega) hact hact'
  push_cast at e1 e2
  linarith

theorem Input.Good.signOf (h : inp.Good s) {s' : Int} (h' : s' = 1 ∧ inp.Downward 1 ∨ s' = -1 ∧ ¬ inp.Downward 1 ∧ inp.Downward (-1)) : s' = s := by
  have hd := h.downward
  have ho := h.one
  rcases h.sign with e | e <;> rcases h' with ⟨e', h1⟩ | ⟨e', h1, h2⟩
  · omega
  · rw [e] at hd; exact absurd hd h1
  · rw [e] at hd; exact absurd ⟨h1, hd⟩ ho
  · omega

/-- Every successful run of `process_grdecl` gives a grid as specified. -/
theorem processed_of_ok (J : Junk) (h : inp.Good s) (ht : 0 ≤ tol) (e : processGrdecl J inp tol = .ok out) : ∃ num, Processed inp s tol out num := by
  obtain ⟨s', np, start, col, plist, pt, hs', _, _, hg⟩ := processGrdecl_ok J h.ok ht (by exact_mod_cast h.small)
    (by rcases h.sign with r | r <;> have := h.downward <;> rw [r] at this <;> simp [this]) h.thick h.area
  obtain ⟨out', fs, ts, qs, gs, e', hgrid⟩ := hg (Or.inr ⟨out, e⟩)
  rw [e] at e'
  cases e'
  have : s' = s := h.signOf hs'
  subst this
  exact ⟨_, hgrid.processed h.ok ht h.sorted⟩

end

end Opm.Cpg
