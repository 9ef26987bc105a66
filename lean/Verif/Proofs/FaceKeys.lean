import Verif.Proofs.Process
/-!
# What each face of a processed grid is

Faces are identified by keys: side faces by the pair of pillars and the two layers, horizontal faces by the cell column and the two layers.
-/

namespace Opm.Cpg
open Opm UniquePoints

section
variable {nx ny nz np : Nat} {plist : List Int} {col : Nat → Nat → Nat → Int} {act : Nat → Nat → Nat → Prop} {start : Nat → Nat}

/-- A face between columns of cells: direction, pair of pillars, layer on the lower and on the higher side. -/
structure SideKey where
  dir : Nat
  i : Nat
  j : Nat
  K : Nat
  L : Nat

/-- A horizontal face: cell column, layer above, layer below. -/
structure TopKey where
  i : Nat
  j : Nat
  L : Nat
  K : Nat

def SideKey.IsOf (nx ny : Nat) (k : SideKey) (f : Face) : Prop :=
  f.a = cellIn nx ny (lowCol k.dir k.i k.j) (cellNumber k.K) ∧ f.b = cellIn nx ny (highCol nx ny k.i k.j) (cellNumber k.L)

theorem side_keys {ps : List (Nat × Nat × Nat)} {fs : List Face} {ts : List Nat} {qs : List (List Int)} (hsf : SideFaces nx ny nz np col ps fs ts qs) (hn : ps.Nodup) :
    ∃ ks : List SideKey, ks.Nodup ∧
      (∀ k : SideKey, ∀ hp hq, Deeper hp → Deeper hq → (k ∈ ks ↔ (k.dir, k.i, k.j) ∈ ps ∧ k.K < 2 * nz + 1 ∧ k.L < 2 * nz + 1 ∧ (IsCell k.K ∨ IsCell k.L) ∧
        Overlap (lowStack col k.dir k.i k.j) (highStack nx ny col k.dir k.i k.j) hp hq k.K k.L)) ∧
      List.Forall₂ (SideKey.IsOf nx ny) ks fs ∧ ts = ks.map SideKey.dir := by
  induction hsf with
  | nil => exact ⟨[], List.nodup_nil, by simp, List.Forall₂.nil, rfl⟩
  | @snoc ps fs ts qs dir i j gs xs _ hc ih =>
    have hn' := List.nodup_append.1 hn
    obtain ⟨ks, h1, h2, h3, h4⟩ := ih hn'.1
    have hnot : (dir, i, j) ∉ ps := fun hm => hn'.2.2 _ hm _ (by simp) rfl
    obtain ⟨x, pairs, hpw, hm, hfo, _⟩ := hc.faces
    have hpn : pairs.Nodup := by
      refine List.Pairwise.imp ?_ hpw
      rintro ⟨a, b⟩ ⟨c, d⟩ h e
      cases e
      simp only at h
      omega
    refine ⟨ks ++ pairs.map (fun p => ⟨dir, i, j, p.1, p.2⟩), ?_, ?_, ?_, ?_⟩
    · rw [List.nodup_append]
      refine ⟨h1, ?_, ?_⟩
      · refine hpn.map ?_
        rintro ⟨a, b⟩ ⟨c, d⟩ e
        cases e
        rfl
      · rintro a ha b hb rfl
        obtain ⟨p, _, rfl⟩ := List.mem_map.1 hb
        exact hnot ((h2 _ _ _ deeper_cast deeper_cast).1 ha).1
    · rintro ⟨d, a, b, K, L⟩ hp hq dp dq
      rw [List.mem_append, List.mem_append, h2 _ hp hq dp dq]
      simp only [List.mem_map, List.mem_singleton, SideKey.mk.injEq, Prod.exists, Prod.mk.injEq]
      constructor
      · rintro (h | ⟨a', b', hab, rfl, rfl, rfl, rfl, rfl⟩)
        · exact ⟨Or.inl h.1, h.2⟩
        · have := (hm hp hq dp dq _ _).1 hab
          exact ⟨Or.inr ⟨rfl, rfl, rfl⟩, by omega, by omega, this.2.2⟩
      · rintro ⟨h | ⟨rfl, rfl, rfl⟩, hr⟩
        · exact Or.inl ⟨h, hr⟩
        · exact Or.inr ⟨K, L, (hm hp hq dp dq _ _).2 ⟨by omega, by omega, hr.2.2⟩, rfl, rfl, rfl, rfl, rfl⟩
    · refine List.rel_append h3 ?_
      rw [List.forall₂_map_left_iff, List.forall₂_map_right_iff]
      refine hfo.imp ?_
      rintro ⟨K, L⟩ f ⟨ha, hb, _⟩
      unfold SideKey.IsOf Face.glob
      simp only
      rw [ha, hb]
      exact ⟨rfl, rfl⟩
    · rw [h4, List.map_append, List.map_map]
      congr 1
      rw [← hfo.length_eq]
      symm
      rw [List.eq_replicate_iff]
      refine ⟨by simp, ?_⟩
      intro b hb
      obtain ⟨_, _, rfl⟩ := List.mem_map.1 hb
      rfl

theorem top_keys {ps : List (Nat × Nat)} {gs : List Face} (h : TopFaces nx ny nz col ps gs) (hn : ps.Nodup) :
    ∃ ks : List TopKey, ks.Nodup ∧ (∀ k : TopKey, k ∈ ks ↔ (k.i, k.j) ∈ ps ∧ k.K ≤ 2 * nz ∧ DirectlyAbove col k.i k.j k.L k.K ∧ (IsCell k.L ∨ IsCell k.K)) ∧
      gs = ks.map (fun k => ⟨layerCell nx ny k.i k.j k.L, layerCell nx ny k.i k.j k.K, ring col k.i k.j k.K⟩) := by
  induction h with
  | nil => exact ⟨[], List.nodup_nil, by simp, rfl⟩
  | @snoc ps fs i j gs _ hs ih =>
    have hn' := List.nodup_append.1 hn
    obtain ⟨ks, h1, h2, h3⟩ := ih hn'.1
    have hnot : (i, j) ∉ ps := fun hm => hn'.2.2 _ hm _ (by simp) rfl
    obtain ⟨pairs, hpw, hm, hg⟩ := hs
    have hpn : pairs.Nodup := by
      refine List.Pairwise.imp ?_ hpw
      rintro ⟨a, b⟩ ⟨c, d⟩ h e
      cases e
      simp only at h
      omega
    refine ⟨ks ++ pairs.map (fun p => ⟨i, j, p.1, p.2⟩), ?_, ?_, ?_⟩
    · rw [List.nodup_append]
      refine ⟨h1, ?_, ?_⟩
      · refine hpn.map ?_
        rintro ⟨a, b⟩ ⟨c, d⟩ e
        cases e
        rfl
      · rintro a ha b hb rfl
        obtain ⟨p, _, rfl⟩ := List.mem_map.1 hb
        exact hnot ((h2 _).1 ha).1
    · rintro ⟨a, b, L, K⟩
      rw [List.mem_append, List.mem_append, h2]
      simp only [List.mem_map, List.mem_singleton, TopKey.mk.injEq, Prod.exists, Prod.mk.injEq]
      constructor
      · rintro (h | ⟨a', b', hab, rfl, rfl, rfl, rfl⟩)
        · exact ⟨Or.inl h.1, h.2⟩
        · exact ⟨Or.inr ⟨rfl, rfl⟩, (hm _ _).1 hab⟩
      · rintro ⟨h | ⟨rfl, rfl⟩, hr⟩
        · exact Or.inl ⟨h, hr⟩
        · exact Or.inr ⟨L, K, (hm _ _).2 hr, rfl, rfl, rfl, rfl⟩
    · rw [h3, hg, List.map_append, List.map_map]
      rfl

theorem nodup_columnsOf (nx ny : Nat) : (columnsOf nx ny).Nodup := by
  unfold columnsOf
  rw [List.nodup_flatMap]
  refine ⟨fun j _ => List.nodup_range.map (fun a b e => by cases e; rfl), ?_⟩
  refine List.Pairwise.imp ?_ List.nodup_range
  intro a b hab
  rw [Function.onFun, List.disjoint_left]
  rintro x hx hy
  obtain ⟨_, _, rfl⟩ := List.mem_map.1 hx
  obtain ⟨_, _, e⟩ := List.mem_map.1 hy
  exact hab (congrArg (fun p => p.2) e).symm

theorem nodup_pairsOf (nx ny dir : Nat) : (pairsOf nx ny dir).Nodup := by
  unfold pairsOf
  rw [List.nodup_flatMap]
  refine ⟨fun j _ => List.nodup_range.map (fun a b e => by cases e; rfl), ?_⟩
  refine List.Pairwise.imp ?_ List.nodup_range
  intro a b hab
  rw [Function.onFun, List.disjoint_left]
  rintro x hx hy
  obtain ⟨_, _, rfl⟩ := List.mem_map.1 hx
  obtain ⟨_, _, e⟩ := List.mem_map.1 hy
  exact hab (congrArg (fun p => p.2.2) e).symm

theorem nodup_pairs (nx ny : Nat) : (pairsOf nx ny 0 ++ pairsOf nx ny 1).Nodup := by
  rw [List.nodup_append]
  refine ⟨nodup_pairsOf _ _ _, nodup_pairsOf _ _ _, ?_⟩
  rintro a ha b hb rfl
  have h1 := (mem_pairsOf (by omega) ha).1
  have h2 := (mem_pairsOf (by omega) hb).1
  omega

theorem mem_pairs_iff {dir i j : Nat} : (dir, i, j) ∈ pairsOf nx ny 0 ++ pairsOf nx ny 1 ↔ IsPair nx ny dir i j := by
  constructor
  · exact mem_pairs (c := (dir, i, j))
  · rintro ⟨h1, h2, h3⟩
    rw [List.mem_append]
    have : dir = 0 ∨ dir = 1 := by omega
    rcases this with rfl | rfl
    · left
      unfold pairsOf
      simp only [List.mem_flatMap, List.mem_range, List.mem_map]
      exact ⟨j, h3, i, h2, rfl⟩
    · right
      unfold pairsOf
      simp only [List.mem_flatMap, List.mem_range, List.mem_map]
      exact ⟨j, h3, i, h2, rfl⟩

theorem mid_num {u v u' v' N lo hi : Int} (hf : (lo < u ∧ u' < hi) ∨ (lo < v ∧ v' < hi)) (h1 : lo < u → u < hi → 0 ≤ u ∧ u < N) (h2 : lo < v → v < hi → 0 ≤ v ∧ v < N)
    (h3 : lo < u' → u' < hi → 0 ≤ u' ∧ u' < N) (h4 : lo < v' → v' < hi → 0 ≤ v' ∧ v' < N) (hm : max u v ≤ min u' v') :
    (0 ≤ max u v ∧ max u v < N) ∧ (0 ≤ min u' v' ∧ min u' v' < N) := by
  omega

theorem outline_cross {A B : Stack} {i j : Nat} (h : Above A B i j) : (B.p (j + 1) < A.p i → Cross A B i (j + 1)) ∧ (A.p (i + 1) < B.p j → Cross A B (i + 1) j) ∧
    (B.q (j + 1) < A.q i → Cross A B i (j + 1)) ∧ (A.q (i + 1) < B.q j → Cross A B (i + 1) j) := by
  obtain ⟨h1, h2, h3, h4⟩ := h
  unfold Cross
  refine ⟨?_, ?_, ?_, ?_⟩ <;> intro h <;> omega

/-- The points of side faces are nodes on pillars or crossings. -/
theorem side_points (h : Columns nx ny nz np plist col act start) (hx : 0 < nx) (hy : 0 < ny) {ps : List (Nat × Nat × Nat)} {fs : List Face} {ts : List Nat}
    {qs : List (List Int)} (hsf : SideFaces nx ny nz np col ps fs ts qs) (hp : ∀ c ∈ ps, IsPair nx ny c.1 c.2.1 c.2.2) :
    ∀ f ∈ fs, ∀ p ∈ f.nodes, 0 ≤ p ∧ p < ((np + qs.length : Nat) : Int) := by
  induction hsf with
  | nil => intro f hf; cases hf
  | @snoc ps fs ts qs dir i j gs xs _ hc ih =>
    intro f hf p hpf
    rw [List.length_append]
    rcases List.mem_append.1 hf with hf | hf
    · have := ih (fun c hc => hp c (List.mem_append_left _ hc)) f hf p hpf
      omega
    · have hpair : IsPair nx ny dir i j := hp (dir, i, j) (by simp)
      obtain ⟨g, hg, rfl⟩ := List.mem_map.1 hf
      obtain ⟨x, pairs, _, hm, hfo, hcr⟩ := hc.faces
      have hd := deeper_cast
      obtain ⟨⟨K, L⟩, hkl, _, _, r, hr⟩ := forall₂_mem hfo hg
      obtain ⟨hK, hL, hcell, hov⟩ := (hm _ _ hd hd K L).1 hkl
      have hA := h.lowOk hx hy hpair
      have hB := h.highOk hx hy hpair
      have ho := ordered hA hB hK hL
      have hne := (overlap_iff ho hd hd).1 hov
      have hnum := fun (S : Stack) hS (M : Nat) (hM : M < 2 * nz + 2) => (h.onPair hx hy hpair (S := S) hS hM).2.2
      have hle : ∀ q v, q < (nx + 1) * (ny + 1) → PillarNum start q v → 0 ≤ v ∧ v < np := by
        rintro q v hq ⟨k, rfl, k1, k2⟩
        have := start_mono h.mono' (show q + 1 ≤ (nx + 1) * (ny + 1) by omega) (Nat.le_refl _)
        rw [h.total] at this
        omega
      have hpp := pairPillars_lt hpair
      have hsep := h.separate hx hy hpair (Nat.le_refl np)
      generalize lowStack col dir i j = A at *
      generalize highStack nx ny col dir i j = B at *
      have fin : (intMin < A.p K ∧ A.p (K + 1) < intMax ∧ intMin < A.q K ∧ A.q (K + 1) < intMax) ∨
          (intMin < B.p L ∧ B.p (L + 1) < intMax ∧ intMin < B.q L ∧ B.q (L + 1) < intMax) := by
        rcases hcell with hc | hc
        · left
          have h1 := (hA.cell K hc (by omega)).resolve_left hne.1
          have h2 := (hsep.cellQ A (by simp) K hc (by omega)).resolve_left hne.1
          exact ⟨h1.1, h1.2, h2.1, h2.2⟩
        · right
          have h1 := (hB.cell L hc (by omega)).resolve_left hne.2.1
          have h2 := (hsep.cellQ B (by simp) L hc (by omega)).resolve_left hne.2.1
          exact ⟨h1.1, h1.2, h2.1, h2.2⟩
      have onP : ∀ S ∈ [A, B], ∀ M, M < 2 * nz + 2 → intMin < S.p M → S.p M < intMax → 0 ≤ S.p M ∧ S.p M < np := by
        intro S hS M hM h1 h2
        rcases (hnum S hS M hM).1 with e | e | e
        · omega
        · omega
        · exact hle _ _ hpp.1 e
      have onQ : ∀ S ∈ [A, B], ∀ M, M < 2 * nz + 2 → intMin < S.q M → S.q M < intMax → 0 ≤ S.q M ∧ S.q M < np := by
        intro S hS M hM h1 h2
        rcases (hnum S hS M hM).2 with e | e | e
        · omega
        · omega
        · exact hle _ _ hpp.2.1 e
      have mA : A ∈ [A, B] := by simp
      have mB : B ∈ [A, B] := by simp
      have k1 : K < 2 * nz + 2 := by omega
      have k2 : K + 1 < 2 * nz + 2 := by omega
      have l1 : L < 2 * nz + 2 := by omega
      have l2 : L + 1 < 2 * nz + 2 := by omega
      have a1 := onP A mA K k1
      have a2 := onP A mA (K + 1) k2
      have a3 := onQ A mA K k1
      have a4 := onQ A mA (K + 1) k2
      have b1 := onP B mB L l1
      have b2 := onP B mB (L + 1) l2
      have b3 := onQ B mB L l1
      have b4 := onQ B mB (L + 1) l2
      have hab := (above_iff ho).1 hne
      have hoc := outline_cross hab
      have mp := mid_num (hf := show (intMin < A.p K ∧ A.p (K + 1) < intMax) ∨ (intMin < B.p L ∧ B.p (L + 1) < intMax) from fin.imp (fun h => ⟨h.1, h.2.1⟩) (fun h => ⟨h.1, h.2.1⟩)) a1 b1 a2 b2
      have mq := mid_num (hf := show (intMin < A.q K ∧ A.q (K + 1) < intMax) ∨ (intMin < B.q L ∧ B.q (L + 1) < intMax) from fin.imp (fun h => h.2.2) (fun h => h.2.2)) a3 b3 a4 b4
      have ex : ∀ v : Int, 0 ≤ v ∧ v < np → 0 ≤ v ∧ v < ((np + (qs.length + xs.length) : Nat) : Int) := fun v hv => ⟨hv.1, lt_of_lt_of_le hv.2 (by exact_mod_cast Nat.le_add_right _ _)⟩
      have cr : ∀ k l, k < 2 * nz + 2 → l < 2 * nz + 2 → Cross A B k l → 0 ≤ x k l ∧ x k l < ((np + (qs.length + xs.length) : Nat) : Int) := by
        intro k l hk hl hc
        obtain ⟨m, e1, e2⟩ := hcr k l hk hl hc
        have := (List.getElem?_eq_some_iff.1 e2).1
        omega
      have c00 := cr K L k1 l1
      have c01 := cr K (L + 1) k1 l2
      have c10 := cr (K + 1) L k2 l1
      have c11 := cr (K + 1) (L + 1) k2 l2
      have hp' : p ∈ outline A B x K L := by
        have hgn : (Face.glob nx ny (lowCol dir i j) (highCol nx ny i j) g).nodes = g.nodes := rfl
        rw [hgn, hr] at hpf
        exact List.mem_rotate.1 hpf
      unfold outline at hp'
      simp only [List.mem_append] at hp'
      rcases hp' with ((((((hp' | hp') | hp') | hp') | hp') | hp') | hp') | hp'
      · split at hp'
        · rename_i e; rw [List.mem_singleton.1 hp']; exact c01 (hoc.1 e)
        · split at hp'
          · rename_i e; rw [List.mem_singleton.1 hp']; exact c10 (hoc.2.1 e)
          · cases hp'
      · split at hp'
        · rename_i e; rw [List.mem_singleton.1 hp']; exact ex _ (mp (le_of_lt e)).1
        · cases hp'
      · split at hp'
        · rename_i hc; rw [List.mem_singleton.1 hp']; exact c00 hc
        · cases hp'
      · split at hp'
        · rename_i e; rw [List.mem_singleton.1 hp']; exact ex _ (mq (le_of_lt e)).1
        · cases hp'
      · split at hp'
        · rename_i e; rw [List.mem_singleton.1 hp']; exact c01 (hoc.2.2.1 e)
        · split at hp'
          · rename_i e; rw [List.mem_singleton.1 hp']; exact c10 (hoc.2.2.2 e)
          · cases hp'
      · split at hp'
        · rename_i e; rw [List.mem_singleton.1 hp']; exact ex _ (mq e).2
        · cases hp'
      · split at hp'
        · rename_i hc; rw [List.mem_singleton.1 hp']; exact c11 hc
        · cases hp'
      · split at hp'
        · rename_i e; rw [List.mem_singleton.1 hp']; exact ex _ (mp e).2
        · cases hp'

end

end Opm.Cpg
