import Verif.Proofs.VerticalFaces
import Mathlib.Tactic.Ring
/-!
# The stacks of a corner-point grid, and all faces between columns of cells
-/

namespace Opm
open Opm

theorem loop_eq_foldlM {σ : Type _} (n : Nat) (f : Nat → σ → M σ) (s : σ) : loop n f s = (List.range n).foldlM (fun t i => f i t) s := by
  induction n with
  | zero => rfl
  | succ n ih =>
    rw [loop_succ, ih, List.range_succ, List.foldlM_append]
    cases (List.range n).foldlM (fun t i => f i t) s with
    | ok t => rw [bind_ok, bind_ok]; simp only [List.foldlM_cons, List.foldlM_nil]; cases f n t <;> rfl
    | error e => rfl

theorem loop2_eq_foldlM {σ : Type _} (a b : Nat) (f : Nat → Nat → σ → M σ) (s : σ) :
    loop b (fun j t => loop a (fun i t => f i j t) t) s = ((List.range b).flatMap (fun j => (List.range a).map (fun i => (i, j)))).foldlM (fun t x => f x.1 x.2 t) s := by
  rw [loop_eq_foldlM]
  generalize List.range b = l
  induction l generalizing s with
  | nil => rfl
  | cons j l ih =>
    rw [List.flatMap_cons, List.foldlM_append, List.foldlM_cons, loop_eq_foldlM, List.foldlM_map]
    cases (List.range a).foldlM (fun t i => f i j t) s with
    | ok t => rw [bind_ok, bind_ok]; exact ih t
    | error e => rfl

end Opm

namespace Opm.Cpg
open Opm UniquePoints

section
variable {nx ny nz np : Nat} {plist : List Int} {col : Nat → Nat → Nat → Int} {act : Nat → Nat → Nat → Prop} {start : Nat → Nat}

/-- The corners of an inactive cell are the same. -/
theorem Columns.inactive (h : Columns nx ny nz np plist col act start) (X Y k : Nat) (hX : X < 2 * nx) (hY : Y < 2 * ny) (hk : k < nz) (ha : ¬ act (X / 2) (Y / 2) k) :
    col X Y (2 * k + 1) = col X Y (2 * k + 2) :=
  (h.void X Y (2 * k + 1) hX hY (by omega) (by rw [show (2 * k + 1) / 2 = k by omega]; exact ha)).symm

theorem Columns.ge (h : Columns nx ny nz np plist col act start) {X Y K : Nat} (hX : X < 2 * nx) (hY : Y < 2 * ny) (hK : K < 2 * nz + 2) : intMin ≤ col X Y K := by
  induction K with
  | zero => rw [h.top X Y hX hY]
  | succ K ih => exact le_trans (ih (by omega)) (h.mono X Y K hX hY (by omega))

theorem Columns.valid (h : Columns nx ny nz np plist col act start) {X Y K : Nat} (hX : X < 2 * nx) (hY : Y < 2 * ny) (hK : K < 2 * nz + 2) : col X Y K ≠ -1 := by
  rcases h.number X Y K hX hY hK with e | e | ⟨k, e, _⟩
  · rw [e]; decide
  · rw [e]; decide
  · rw [e]; omega

/-- Two columns of corners of the same column of cells make a stack. -/
theorem Columns.stackOk (h : Columns nx ny nz np plist col act start) {X Y X' Y' : Nat} (hX : X < 2 * nx) (hY : Y < 2 * ny) (hX' : X' < 2 * nx) (hY' : Y' < 2 * ny)
    (ex : X / 2 = X' / 2) (ey : Y / 2 = Y' / 2) : Stack.Ok ⟨col X Y, col X' Y'⟩ (2 * nz + 2) := by
  refine ⟨fun i hi => h.mono X Y i hX hY (by omega), fun i hi => h.mono X' Y' i hX' hY' (by omega), ⟨h.top X Y hX hY, h.top X' Y' hX' hY'⟩,
    ⟨h.bottom X Y hX hY, h.bottom X' Y' hX' hY'⟩, ?_, fun i hi => ⟨h.valid hX hY hi, h.valid hX' hY' hi⟩⟩
  intro i hi hn
  have e : i = 2 * (i / 2) + 1 := by omega
  by_cases ha : act (X / 2) (Y / 2) (i / 2)
  · right
    have := h.active X Y (i / 2) hX hY (by omega) ha
    rw [← e, show 2 * (i / 2) + 2 = i + 1 by omega] at this
    exact this
  · left
    have h1 := h.inactive X Y (i / 2) hX hY (by omega) ha
    have h2 := h.inactive X' Y' (i / 2) hX' hY' (by omega) (by rw [← ex, ← ey]; exact ha)
    rw [← e, show 2 * (i / 2) + 2 = i + 1 by omega] at h1 h2
    exact ⟨h1, h2⟩

theorem Columns.sideOk (h : Columns nx ny nz np plist col act start) {dir s i j : Nat} (hs : s < 2) (hi : i < nx) (hj : j < ny) : (sideStack col dir s i j).Ok (2 * nz + 2) := by
  unfold sideStack
  split
  · exact h.stackOk (by omega) (by omega) (by omega) (by omega) (by omega) (by omega)
  · exact h.stackOk (by omega) (by omega) (by omega) (by omega) (by omega) (by omega)

/-- `(dir, i, j)` is one of the pairs of pillars. -/
def IsPair (nx ny dir i j : Nat) : Prop := dir < 2 ∧ i < nx + (1 - dir) ∧ j < ny + dir

theorem lowCol_lt {dir i j a b : Nat} (hp : IsPair nx ny dir i j) (hc : lowCol dir i j = some (a, b)) : a < nx ∧ b < ny := by
  obtain ⟨h1, h2, h3⟩ := hp
  unfold lowCol at hc
  split at hc <;> split at hc <;> cases hc <;> omega

theorem highCol_lt {i j a b : Nat} (hc : highCol nx ny i j = some (a, b)) : a < nx ∧ b < ny ∧ a = i ∧ b = j := by
  unfold highCol at hc
  split at hc <;> cases hc
  omega

theorem Columns.lowOk (h : Columns nx ny nz np plist col act start) (hx : 0 < nx) (hy : 0 < ny) {dir i j : Nat} (hp : IsPair nx ny dir i j) :
    (lowStack col dir i j).Ok (2 * nz + 2) := by
  unfold lowStack
  cases e : lowCol dir i j with
  | some c =>
    obtain ⟨a, b⟩ := c
    obtain ⟨h1, h2⟩ := lowCol_lt hp e
    exact h.sideOk (by omega) h1 h2
  | none =>
    obtain ⟨h1, h2, h3⟩ := hp
    unfold lowCol at e
    apply h.sideOk (by omega) <;> (split at e <;> split at e <;> first | (cases e; done) | omega)

theorem Columns.highOk (h : Columns nx ny nz np plist col act start) (hx : 0 < nx) (hy : 0 < ny) {dir i j : Nat} (hp : IsPair nx ny dir i j) :
    (highStack nx ny col dir i j).Ok (2 * nz + 2) := by
  unfold highStack
  cases e : highCol nx ny i j with
  | some c =>
    obtain ⟨a, b⟩ := c
    obtain ⟨h1, h2, _⟩ := highCol_lt e
    exact h.sideOk (by omega) h1 h2
  | none => exact h.lowOk hx hy hp

/-- Columns of `plist`. -/
theorem Columns.colAt (h : Columns nx ny nz np plist col act start) {X Y : Nat} (hX : X < 2 * nx) (hY : Y < 2 * ny) {v : Int} (hv : v = ((2 + 2 * nz) * (X + 2 * nx * Y) : Nat)) :
    ColAt plist v.toNat (2 * nz + 2) (col X Y) := by
  intro K hK
  rw [hv, Int.toNat_natCast]
  exact h.get X Y K hX hY hK

theorem colpos {nx nz X Y : Nat} {a b : Int} (ha : a = X) (hb : b = Y) :
    ((2 * (nz + 1) : Nat) : Int) * (a + ((2 * nx : Nat) : Int) * b) = (((2 + 2 * nz) * (X + 2 * nx * Y) : Nat) : Int) := by
  rw [ha, hb, show 2 * (nz + 1) = 2 + 2 * nz by omega]
  push_cast
  ring

theorem Columns.pairAt (h : Columns nx ny nz np plist col act start) (hx : 0 < nx) (hy : 0 < ny) {dir i j : Nat} (hp : IsPair nx ny dir i j) :
    ColAt plist ((cornerpts dir nx ny nz i j).getD 0 0).toNat (2 * nz + 2) (lowStack col dir i j).p ∧
    ColAt plist ((cornerpts dir nx ny nz i j).getD 1 0).toNat (2 * nz + 2) (lowStack col dir i j).q ∧
    ColAt plist ((cornerpts dir nx ny nz i j).getD 2 0).toNat (2 * nz + 2) (highStack nx ny col dir i j).p ∧
    ColAt plist ((cornerpts dir nx ny nz i j).getD 3 0).toNat (2 * nz + 2) (highStack nx ny col dir i j).q := by
  obtain ⟨hd, hi, hj⟩ := hp
  have h2 : dir = 0 ∨ dir = 1 := by omega
  rcases h2 with rfl | rfl
  · have lo : lowStack col 0 i j = ⟨col (max 1 (2 * i) - 1) (2 * j), col (max 1 (2 * i) - 1) (2 * j + 1)⟩ := by
      unfold lowStack lowCol sideStack
      by_cases hi0 : i = 0
      · subst hi0; simp
      · simp only [hi0, if_true, if_false, show max 1 (2 * i) - 1 = 2 * (i - 1) + 1 by omega]
    have hi' : highStack nx ny col 0 i j = ⟨col (min (2 * nx) (2 * i + 1) - 1) (2 * j), col (min (2 * nx) (2 * i + 1) - 1) (2 * j + 1)⟩ := by
      unfold highStack highCol
      by_cases hi0 : i < nx
      · rw [if_pos ⟨hi0, by omega⟩]
        unfold sideStack
        simp only [if_true, show min (2 * nx) (2 * i + 1) - 1 = 2 * i + 0 by omega]
      · rw [if_neg (by omega)]
        simp only
        rw [lo, show max 1 (2 * i) - 1 = min (2 * nx) (2 * i + 1) - 1 by omega]
    rw [lo, hi']
    simp only [cornerpts, vectorPositions, show (0 : Nat) ≠ 1 by omega, if_false, List.getD_cons_zero, List.getD_cons_succ]
    refine ⟨h.colAt (by omega) (by omega) ?_, h.colAt (by omega) (by omega) ?_, h.colAt (by omega) (by omega) ?_, h.colAt (by omega) (by omega) ?_⟩
    all_goals exact colpos (by omega) (by omega)
  · have lo : lowStack col 1 i j = ⟨col (2 * i + 1) (max 1 (2 * j) - 1), col (2 * i) (max 1 (2 * j) - 1)⟩ := by
      unfold lowStack lowCol sideStack
      by_cases hj0 : j = 0
      · subst hj0; simp
      · simp only [hj0, Nat.one_ne_zero, if_false, show max 1 (2 * j) - 1 = 2 * (j - 1) + 1 by omega]
    have hi' : highStack nx ny col 1 i j = ⟨col (2 * i + 1) (min (2 * ny) (2 * j + 1) - 1), col (2 * i) (min (2 * ny) (2 * j + 1) - 1)⟩ := by
      unfold highStack highCol
      by_cases hj0 : j < ny
      · rw [if_pos ⟨by omega, hj0⟩]
        unfold sideStack
        simp only [Nat.one_ne_zero, if_false, show min (2 * ny) (2 * j + 1) - 1 = 2 * j + 0 by omega]
      · rw [if_neg (by omega)]
        simp only
        rw [lo, show max 1 (2 * j) - 1 = min (2 * ny) (2 * j + 1) - 1 by omega]
    rw [lo, hi']
    simp only [cornerpts, vectorPositions, if_true, List.getD_cons_zero, List.getD_cons_succ]
    refine ⟨h.colAt (by omega) (by omega) ?_, h.colAt (by omega) (by omega) ?_, h.colAt (by omega) (by omega) ?_, h.colAt (by omega) (by omega) ?_⟩
    all_goals exact colpos (by omega) (by omega)

theorem cellAt_low (nx ny : Nat) {dir i j : Nat} (hp : IsPair nx ny dir i j) (v : Int) :
    cellAt nx ny ((i : Int) - 1 + dir) ((j : Int) - dir) v = cellIn nx ny (lowCol dir i j) v := by
  obtain ⟨hd, hi, hj⟩ := hp
  have h2 : dir = 0 ∨ dir = 1 := by omega
  unfold cellAt cellIn lowCol
  rcases h2 with rfl | rfl
  · by_cases hi0 : i = 0
    · subst hi0; simp
    · simp only [hi0, if_true, if_false]
      by_cases hv : v = -1
      · rw [if_pos (Or.inr hv), if_pos hv]
      · rw [if_neg (by omega), if_neg hv, show ((i - 1 : Nat) : Int) = (i : Int) - 1 by omega]
        simp
  · by_cases hj0 : j = 0
    · subst hj0; simp
    · simp only [hj0, Nat.one_ne_zero, if_false]
      by_cases hv : v = -1
      · rw [if_pos (Or.inr hv), if_pos hv]
      · rw [if_neg (by omega), if_neg hv, show ((j - 1 : Nat) : Int) = (j : Int) - 1 by omega]
        simp

theorem cellAt_high (nx ny : Nat) (i j : Nat) (v : Int) : cellAt nx ny i j v = cellIn nx ny (highCol nx ny i j) v := by
  unfold cellAt cellIn highCol
  by_cases hin : i < nx ∧ j < ny
  · rw [if_pos hin]
    simp only
    by_cases hv : v = -1
    · rw [if_pos (Or.inr hv), if_pos hv]
    · rw [if_neg (by omega), if_neg hv]
  · rw [if_neg hin, if_pos (by omega)]

theorem mem_pairsOf {nx ny dir : Nat} (hd : dir < 2) {x : Nat × Nat × Nat} (h : x ∈ pairsOf nx ny dir) : x.1 = dir ∧ IsPair nx ny x.1 x.2.1 x.2.2 := by
  unfold pairsOf at h
  obtain ⟨j, hj, h⟩ := List.mem_flatMap.1 h
  obtain ⟨i, hi, rfl⟩ := List.mem_map.1 h
  exact ⟨rfl, hd, List.mem_range.1 hi, List.mem_range.1 hj⟩

/-- Invariant of a loop that is known to succeed, or of which each step succeeds under the condition `C`. -/
theorem foldlM_inv_or {σ β : Type _} {l : List β} {f : σ → β → M σ} {s : σ} (C : Prop) (P : List β → σ → Prop) (h0 : P [] s) (hC : C ∨ ∃ t, l.foldlM f s = .ok t)
    (hs : ∀ done x rest t, l = done ++ x :: rest → P done t → (C ∨ ∃ t', f t x = .ok t') → ∃ t', f t x = .ok t' ∧ P (done ++ [x]) t') :
    ∃ t, l.foldlM f s = .ok t ∧ P l t := by
  rcases hC with hC | ⟨u, hu⟩
  · exact foldlM_inv P h0 (fun done x rest t hl hP => hs done x rest t hl hP (Or.inl hC))
  · suffices h : ∀ (rest done : List β) (t : σ), l = done ++ rest → P done t → rest.foldlM f t = .ok u → P l u from ⟨u, hu, h l [] s rfl h0 hu⟩
    intro rest
    induction rest with
    | nil =>
      intro done t hl hP e
      cases e
      rw [hl, List.append_nil]
      exact hP
    | cons x rest ih =>
      intro done t hl hP e
      rw [List.foldlM_cons] at e
      obtain ⟨t1, e1, e2⟩ := bind_eq_ok.1 e
      obtain ⟨t', e3, hP'⟩ := hs done x rest t hl hP (Or.inr ⟨t1, e1⟩)
      rw [e1] at e3
      cases e3
      exact ih (done ++ [x]) t1 (by rw [hl]; simp) hP' e2

/-- All pairs of pillars of one direction. -/
theorem verticalFaces_ok (J : Junk) (h : Columns nx ny nz np plist col act start) (hx : 0 < nx) (hy : 0 < ny) (hz : 0 < nz) {dir : Nat} (hd : dir < 2)
    {g : PGrid} {ps : List (Nat × Nat × Nat)} {fs : List Face} {ts : List Nat} {qs : List (List Int)}
    (ht : ((∀ i j, IsPair nx ny dir i j → Tame (lowStack col dir i j) (highStack nx ny col dir i j) (2 * nz + 2)) ∧ qs.length ≤ fs.length) ∨
      ∃ t, verticalFaces J plist dir nx ny nz (g, List.replicate (2 * nz + 2) (-1), List.replicate (2 * nz + 2) (-1)) = .ok t)
    (hg : GInv g fs ts qs) (hnp : g.np = np) (hsf : SideFaces nx ny nz np col ps fs ts qs) :
    ∃ g' fs' ts' qs', verticalFaces J plist dir nx ny nz (g, List.replicate (2 * nz + 2) (-1), List.replicate (2 * nz + 2) (-1)) =
        .ok (g', List.replicate (2 * nz + 2) (-1), List.replicate (2 * nz + 2) (-1)) ∧ GInv g' fs' ts' qs' ∧ g'.np = np ∧
      ((∀ i j, IsPair nx ny dir i j → Tame (lowStack col dir i j) (highStack nx ny col dir i j) (2 * nz + 2)) ∧ qs.length ≤ fs.length → qs'.length ≤ fs'.length) ∧
      SideFaces nx ny nz np col (ps ++ pairsOf nx ny dir) fs' ts' qs' := by
  unfold verticalFaces at ht ⊢
  rw [loop2_eq_foldlM] at ht ⊢
  have hmap : pairsOf nx ny dir = ((List.range (ny + dir)).flatMap (fun j => (List.range (nx + (1 - dir))).map (fun i => (i, j)))).map (fun x => (dir, x.1, x.2)) := by
    unfold pairsOf
    rw [List.map_flatMap]
    congr 1
    funext j
    rw [List.map_map]
    rfl
  rw [hmap]
  obtain ⟨t, e, ⟨g', fs', ts', qs', rfl, h1⟩⟩ := foldlM_inv_or
    ((∀ i j, IsPair nx ny dir i j → Tame (lowStack col dir i j) (highStack nx ny col dir i j) (2 * nz + 2)) ∧ qs.length ≤ fs.length)
    (l := (List.range (ny + dir)).flatMap (fun j => (List.range (nx + (1 - dir))).map (fun i => (i, j))))
    (f := fun t x => verticalPair J plist dir nx ny nz x.1 x.2 t)
    (s := (g, List.replicate (2 * nz + 2) (-1), List.replicate (2 * nz + 2) (-1)))
    (fun (done : List (Nat × Nat)) (t : PGrid × List Int × List Int) => ∃ g' fs' ts' qs', t = (g', List.replicate (2 * nz + 2) (-1), List.replicate (2 * nz + 2) (-1)) ∧
      GInv g' fs' ts' qs' ∧ g'.np = np ∧
      ((∀ i j, IsPair nx ny dir i j → Tame (lowStack col dir i j) (highStack nx ny col dir i j) (2 * nz + 2)) ∧ qs.length ≤ fs.length → qs'.length ≤ fs'.length) ∧
      SideFaces nx ny nz np col (ps ++ done.map (fun x => (dir, x.1, x.2))) fs' ts' qs')
    ⟨g, fs, ts, qs, rfl, hg, hnp, fun hc => hc.2, by rw [List.map_nil, List.append_nil]; exact hsf⟩ ht (by
      rintro done ⟨i, j⟩ rest t hl ⟨g', fs', ts', qs', rfl, h1, h2, h3, h4⟩ hor
      have hmem : (dir, i, j) ∈ pairsOf nx ny dir := by
        rw [hmap, hl]
        simp
      have hp := (mem_pairsOf hd hmem).2
      simp only at hp
      obtain ⟨c0, c1, c2, c3⟩ := h.pairAt hx hy hp
      obtain ⟨gs, xs, g'', k1, k2, k3, k4, k5⟩ := verticalPair_ok J (by omega) (h.lowOk hx hy hp) (h.highOk hx hy hp) c0 c1 c2 c3 h1
        (hor.imp (fun hc => ⟨h3 hc, hc.1 i j hp⟩) id)
      have hglob : (fun f : Face => (⟨cellAt nx ny ((i : Int) - 1 + dir) ((j : Int) - dir) f.a, cellAt nx ny i j f.b, f.nodes⟩ : Face)) =
          Face.glob nx ny (lowCol dir i j) (highCol nx ny i j) := by
        funext f
        unfold Face.glob
        rw [cellAt_low nx ny hp, cellAt_high]
      rw [hglob] at k4
      rw [h2] at k1
      refine ⟨_, k2, g'', _, _, _, rfl, k4, by rw [k3, h2], ?_, ?_⟩
      · intro hc
        have := k5 ⟨h3 hc, hc.1 i j hp⟩
        simp only [List.length_append, List.length_map] at this ⊢; exact this
      · rw [List.map_append, ← List.append_assoc]
        exact SideFaces.snoc h4 k1)
  exact ⟨g', fs', ts', qs', e, h1⟩

theorem initialGrid_ok (J : Junk) (np : Nat) : GInv (initialGrid J np) [] [] [] := by
  refine ⟨rfl, ?_, rfl, ?_, rfl, ?_, ?_, ?_, rfl, ?_, rfl, ?_, rfl, Nat.zero_le _⟩
  · exact length_realloc ..
  · have : (initialGrid J np).nbr.length = bignum := length_realloc ..
    rw [this]; show 2 * 21 ≤ 64; omega
  · have : (initialGrid J np).ptr.length = bignum / 3 + 1 := by
      have h1 := length_realloc J.n [] (bignum / 3 + 1)
      unfold initialGrid
      simp only
      rw [List.length_set, h1]
    rw [this]
    rfl
  · have : 0 < (realloc J.n [] (bignum / 3 + 1)).length := by rw [length_realloc]; omega
    unfold initialGrid
    simp only
    cases e : realloc J.n [] (bignum / 3 + 1) with
    | nil => rw [e] at this; simp at this
    | cons a l => rfl
  · exact length_realloc ..
  · right
    exact ⟨rfl, length_realloc ..⟩
  · intro q hq; cases hq

/-- All faces between columns of cells. -/
theorem sides_ok (J : Junk) (h : Columns nx ny nz np plist col act start) (hx : 0 < nx) (hy : 0 < ny) (hz : 0 < nz)
    (ht : (∀ dir i j, IsPair nx ny dir i j → Tame (lowStack col dir i j) (highStack nx ny col dir i j) (2 * nz + 2)) ∨
      ∃ t u, verticalFaces J plist 0 nx ny nz (initialGrid J np, List.replicate (2 * nz + 2) (-1), List.replicate (2 * nz + 2) (-1)) = .ok t ∧
        verticalFaces J plist 1 nx ny nz t = .ok u) :
    ∃ g' g'' fs ts qs, verticalFaces J plist 0 nx ny nz (initialGrid J np, List.replicate (2 * nz + 2) (-1), List.replicate (2 * nz + 2) (-1)) =
        .ok (g', List.replicate (2 * nz + 2) (-1), List.replicate (2 * nz + 2) (-1)) ∧
      verticalFaces J plist 1 nx ny nz (g', List.replicate (2 * nz + 2) (-1), List.replicate (2 * nz + 2) (-1)) =
        .ok (g'', List.replicate (2 * nz + 2) (-1), List.replicate (2 * nz + 2) (-1)) ∧
      GInv g'' fs ts qs ∧ g''.np = np ∧ SideFaces nx ny nz np col (pairsOf nx ny 0 ++ pairsOf nx ny 1) fs ts qs := by
  obtain ⟨g', fs', ts', qs', e1, h1, h2, h3, h4⟩ := verticalFaces_ok J h hx hy hz (dir := 0) (by omega) (ht.imp (fun ht => ⟨ht 0, Nat.le_refl _⟩) (fun ⟨t, _, e, _⟩ => ⟨t, e⟩))
    (initialGrid_ok J np) rfl .nil
  rw [List.nil_append] at h4
  obtain ⟨g'', fs'', ts'', qs'', e2, k1, k2, _, k4⟩ := verticalFaces_ok J h hx hy hz (dir := 1) (by omega) (ht.imp (fun ht => ⟨ht 1, h3 ⟨ht 0, Nat.le_refl _⟩⟩) (by
    rintro ⟨t, u, e, e'⟩
    rw [e1] at e
    cases e
    exact ⟨u, e'⟩)) h1 h2 h4
  exact ⟨g', g'', fs'', ts'', qs'', e1, e2, k1, k2, k4⟩

end

end Opm.Cpg
