import Verif.Proofs.CoarseDerive
/-! # Lemmas about coarse grid topologies: the final tables -/

namespace Opm.CoarseConn
open Opm Opm.Bucket Opm.Graph

/-- The coarse faces of the first `k` blocks, in order. -/
def facesUpTo (LL : List (List Neighbour)) : Nat → List (Nat × Neighbour)
  | 0 => []
  | k + 1 => facesUpTo LL k ++ (LL.getD k []).map (fun nb => (k, nb))

theorem facesUpTo_prefix (LL : List (List Neighbour)) {k n : Nat} (hk : k ≤ n) : facesUpTo LL k <+: facesUpTo LL n := by
  induction n with
  | zero => obtain rfl : k = 0 := by omega
            exact List.prefix_refl _
  | succ n ih =>
    rcases Nat.lt_or_ge k (n + 1) with h | h
    · exact (ih (by omega)).trans (List.prefix_append _ _)
    · obtain rfl : k = n + 1 := by omega
      exact List.prefix_refl _

theorem facesUpTo_length (LL : List (List Neighbour)) {k : Nat} (hk : k ≤ LL.length) : (facesUpTo LL k).length = (LL.take k).flatten.length := by
  induction k with
  | zero => simp [facesUpTo]
  | succ k ih =>
    have hg := List.getElem?_eq_getElem (show k < LL.length from hk)
    rw [List.take_add_one, hg]
    simp only [facesUpTo, List.length_append, List.length_map, ih (by omega), List.getD_eq_getElem?_getD, hg, Option.getD_some, Option.toList_some,
      List.flatten_append, List.flatten_cons, List.flatten_nil, List.append_nil]

theorem mem_facesUpTo {LL : List (List Neighbour)} {k a : Nat} {nb : Neighbour} :
    (a, nb) ∈ facesUpTo LL k ↔ a < k ∧ nb ∈ LL.getD a [] := by
  induction k with
  | zero => simp [facesUpTo]
  | succ k ih =>
    simp only [facesUpTo, List.mem_append, ih, List.mem_map, Prod.mk.injEq]
    constructor
    · rintro (⟨h1, h2⟩ | ⟨x, hx, rfl, rfl⟩)
      · exact ⟨by omega, h2⟩
      · exact ⟨by omega, hx⟩
    · rintro ⟨h1, h2⟩
      by_cases hak : a = k
      · subst hak; exact .inr ⟨nb, h2, rfl, rfl⟩
      · exact .inl ⟨by omega, h2⟩

/-- Rule for the two nested loops over the blocks and their neighbours. -/
theorem nested_inv {σ : Type} {tab : List (Option Neighbours)} {LL : List (List Neighbour)} {nblk : Nat}
    (hrep : ∀ a : Nat, a < nblk → ∃ x L, tab[a]? = some x ∧ LL[a]? = some L ∧ Slot x L)
    (body : Nat → σ → M σ) (step : Nat → Neighbours → Nat → σ → M σ) (P : List (Nat × Neighbour) → σ → Prop) {s : σ} (h0 : P [] s)
    (hnull : ∀ (b : Nat) done t, tab[b]? = some none → P done t → body b t = .ok t)
    (hlist : ∀ (b : Nat) bn done t, tab[b]? = some (some bn) → P done t → body b t = loop bn.nneigh (step b bn) t)
    (hstep : ∀ (b : Nat) bn (n : Nat) nb done rest t, bn.neigh[n]? = some (some nb) → facesUpTo LL nblk = done ++ (b, nb) :: rest → P done t →
      ∃ t', step b bn n t = .ok t' ∧ P (done ++ [(b, nb)]) t') :
    ∃ t, loop nblk body s = .ok t ∧ P (facesUpTo LL nblk) t := by
  refine loop_inv (fun k t => P (facesUpTo LL k) t) h0 ?_
  intro b t hb hP
  obtain ⟨x, L, e1, e2, hs⟩ := hrep b hb
  have hgD : LL.getD b [] = L := by rw [List.getD_eq_getElem?_getD, e2, Option.getD_some]
  cases hs with
  | null =>
    refine ⟨t, hnull b _ t e1 hP, ?_⟩
    simp only [facesUpTo, hgD, List.map_nil, List.append_nil]; exact hP
  | list H =>
    rename_i bn
    obtain ⟨t', et, hP'⟩ := loop_inv (n := bn.nneigh) (s := t) (f := step b bn)
      (fun n t => P (facesUpTo LL b ++ (L.take n).map (fun nb => (b, nb))) t) (by simpa using hP)
      (by
        intro n t hn hP
        have hnl : n < L.length := by rw [← H.num]; exact hn
        have hg := List.getElem?_eq_getElem hnl
        have e : (L.take (n + 1)).map (fun nb => (b, nb)) = (L.take n).map (fun nb => (b, nb)) ++ [(b, L[n])] := by
          rw [List.take_add_one, hg, List.map_append]; rfl
        have hpre : facesUpTo LL b ++ (L.take (n + 1)).map (fun nb => (b, nb)) <+: facesUpTo LL nblk := by
          refine List.IsPrefix.trans ?_ (facesUpTo_prefix LL (show b + 1 ≤ nblk from hb))
          simp only [facesUpTo, hgD]
          rw [List.prefix_append_right_inj]
          exact (List.take_prefix _ _).map _
        obtain ⟨rest, hr⟩ := hpre
        obtain ⟨t', e1, e2⟩ := hstep b bn n L[n] _ rest t (H.get hnl) (by rw [← hr, e]; simp) hP
        exact ⟨t', e1, by rw [e, ← List.append_assoc]; exact e2⟩)
    refine ⟨t', by rw [hlist b bn _ t e1 hP, et], ?_⟩
    simp only [facesUpTo, hgD]
    rw [H.num, List.take_length] at hP'
    exact hP'

/-- The blocks of a coarse face, as pairs of block and face number. -/
def faceItems (x : Nat × Neighbour) (j : Nat) : List (Nat × Nat) :=
  (x.1, j) :: if x.2.b ≥ 0 then [(x.2.b.toNat, j)] else []

def items (F : List (Nat × Neighbour)) : List (Nat × Nat) := F.zipIdx.flatMap (fun x => faceItems x.1 x.2)

theorem items_append (A B : List (Nat × Neighbour)) : ∃ rest, items (A ++ B) = items A ++ rest := by
  unfold items
  rw [List.zipIdx_append, List.flatMap_append]
  exact ⟨_, rfl⟩

theorem items_snoc (A : List (Nat × Neighbour)) (x : Nat × Neighbour) : items (A ++ [x]) = items A ++ faceItems x A.length := by
  unfold items
  rw [List.zipIdx_append, List.flatMap_append]
  simp

theorem items_split {F A B : List (Nat × Neighbour)} {x : Nat × Neighbour} (h : F = A ++ x :: B) :
    ∃ rest, items F = items A ++ (faceItems x A.length ++ rest) := by
  obtain ⟨rest, hr⟩ := items_append (A ++ [x]) B
  refine ⟨rest, ?_⟩
  rw [h, show A ++ x :: B = (A ++ [x]) ++ B by simp, hr, items_snoc, List.append_assoc]

theorem mem_items {F : List (Nat × Neighbour)} {b j : Nat} :
    (b, j) ∈ items F ↔ ∃ x, F[j]? = some x ∧ (x.1 = b ∨ x.2.b = (b : Int)) := by
  unfold items
  rw [List.mem_flatMap]
  constructor
  · rintro ⟨⟨⟨a, nb⟩, i⟩, hx, hm⟩
    rw [List.mem_zipIdx_iff_getElem?] at hx
    simp only at hx hm
    unfold faceItems at hm
    rcases List.mem_cons.1 hm with h | h
    · cases h; exact ⟨_, hx, .inl rfl⟩
    · split at h
      · simp only [List.mem_singleton, Prod.mk.injEq] at h
        obtain ⟨h1, rfl⟩ := h
        exact ⟨_, hx, .inr (by simp only at *; omega)⟩
      · simp at h
  · rintro ⟨⟨a, nb⟩, hx, hm⟩
    refine ⟨((a, nb), j), List.mem_zipIdx_iff_getElem?.2 hx, ?_⟩
    unfold faceItems
    rcases hm with rfl | hm
    · simp
    · rw [if_pos (by simp only at *; omega)]
      simp only at hm ⊢
      rw [hm]; simp

theorem row_sorted {F : List (Nat × Neighbour)} (hne : ∀ x ∈ F, (x.1 : Int) ≠ x.2.b) (b : Nat) : (rowOf (items F) b).Pairwise (· < ·) := by
  induction F using List.reverseRecOn with
  | nil => simp [items]
  | append_singleton A x ih =>
    rw [items_snoc, rowOf_append, List.pairwise_append]
    refine ⟨ih (fun y hy => hne y (by simp [hy])), ?_, ?_⟩
    · have := hne x (by simp)
      unfold faceItems
      split
      · by_cases h1 : x.1 = b
        · have : ¬ x.2.b.toNat = b := by omega
          simp [rowOf, h1, this]
        · by_cases h2 : x.2.b.toNat = b <;> simp [rowOf, h1, h2]
      · by_cases h1 : x.1 = b <;> simp [rowOf, h1]
    · intro i hi j hj
      rw [mem_rowOf, mem_items] at hi
      obtain ⟨y, hy, _⟩ := hi
      have := (List.getElem?_eq_some_iff.1 hy).1
      rw [mem_rowOf] at hj
      unfold faceItems at hj
      rcases List.mem_cons.1 hj with h | h
      · cases h; exact this
      · split at h
        · simp only [List.mem_singleton, Prod.mk.injEq] at h; omega
        · simp at h

theorem slice_boundaries {α : Type} {cs : List (List α)} {i : Nat} {C : List α} (h : cs[i]? = some C) :
    ∃ q q', (boundaries 0 cs)[i]? = some q ∧ (boundaries 0 cs)[i + 1]? = some q' ∧ slice cs.flatten q q' = .ok C := by
  have hi := (List.getElem?_eq_some_iff.1 h).1
  refine ⟨_, _, boundaries_get cs 0 i (by omega), boundaries_get cs 0 (i + 1) (by omega), ?_⟩
  have e1 : (cs.take (i + 1)).flatten = (cs.take i).flatten ++ C := by
    rw [List.take_add_one, h]; simp
  have e2 : cs.flatten = (cs.take (i + 1)).flatten ++ (cs.drop (i + 1)).flatten := by
    rw [← List.flatten_append, List.take_append_drop]
  unfold slice
  rw [Nat.zero_add, Nat.zero_add, if_pos]
  · rw [e2, List.take_left' rfl, e1, List.drop_left' rfl]
  · rw [e2, e1]; simp

/-- Condition on the coarse faces. -/
structure FacesOk (h : Int → Nat → Nat) (expct : Int) (nblk : Nat) (F : List (Nat × Neighbour)) : Prop where
  fst : ∀ x ∈ F, x.1 < nblk
  snd : ∀ x ∈ F, x.2.b < nblk
  ne : ∀ x ∈ F, (x.1 : Int) ≠ x.2.b
  sets : ∀ x ∈ F, SetOk h expct x.2

variable {h : Int → Nat → Nat} {expct : Int} {nblk : Nat}

/-- The neighbour table of a list of coarse faces. -/
def pairs (F : List (Nat × Neighbour)) : List Int := F.flatMap (fun x => [(x.1 : Int), x.2.b])

theorem pairs_length (F : List (Nat × Neighbour)) : (pairs F).length = 2 * F.length := by
  unfold pairs
  induction F with
  | nil => rfl
  | cons x F ih => rw [List.flatMap_cons, List.length_append, ih, List.length_cons]; simp; omega

theorem pairs_snoc (F : List (Nat × Neighbour)) (x : Nat × Neighbour) : pairs (F ++ [x]) = pairs F ++ [(x.1 : Int), x.2.b] := by
  simp [pairs, List.flatMap_append]

theorem pairs_get {F : List (Nat × Neighbour)} {j : Nat} {x : Nat × Neighbour} (hx : F[j]? = some x) :
    (pairs F)[2 * j]? = some (x.1 : Int) ∧ (pairs F)[2 * j + 1]? = some x.2.b := by
  induction F generalizing j with
  | nil => simp at hx
  | cons y F ih =>
    unfold pairs at ih ⊢
    rw [List.flatMap_cons]
    cases j with
    | zero => simp at hx; subst hx; simp
    | succ j =>
      obtain ⟨h1, h2⟩ := ih (by simpa using hx)
      rw [show 2 * (j + 1) = 2 * j + 2 by omega, show 2 * j + 2 + 1 = (2 * j + 1) + 2 by omega]
      exact ⟨by simpa using h1, by simpa using h2⟩

theorem countConns_ok {nb : Neighbour} (hs : SetOk h expct nb) : countConns nb = .ok nb.conns.length := by
  unfold countConns Neighbour.conns
  by_cases he : 0 < expct
  · obtain ⟨q, s, e, hI⟩ := hs.some he
    rw [e]
    exact HashSet.countElms_ok hI.len
  · rw [hs.none he]; rfl

/-- The fine connections of the coarse faces. -/
def subs (F : List (Nat × Neighbour)) : List (List Int) := F.map (fun x => x.2.conns)

theorem bumpOther_ok {nblk : Nat} {its : List (Nat × Nat)} {ia : List Nat} (hc : Counted nblk its ia) (b : Int) (hb : b < nblk) (j : Nat) :
    ∃ ia', bumpOther b ia = .ok ia' ∧ Counted nblk (its ++ if b ≥ 0 then [(b.toNat, j)] else []) ia' ∧ ia'.length = ia.length := by
  unfold bumpOther
  by_cases h0 : b ≥ 0
  · rw [if_pos h0, if_pos h0, show (b + 1).toNat = b.toNat + 1 by omega]
    exact bump_counted hc j (by omega)
  · rw [if_neg h0, if_neg h0, List.append_nil]
    exact ⟨ia, rfl, hc, rfl⟩

structure CfInv (nblk ncf : Nat) (done : List (Nat × Neighbour)) (s : FaceState) : Prop where
  cf : s.coarsef = done.length
  nb : ∃ R, s.neighbours = pairs done ++ R
  nlen : s.neighbours.length = 2 * ncf
  cnt : Counted nblk (items done) s.blkfacepos
  blen : s.blkfacepos.length = nblk + 1
  sub : s.nsubf = (subs done).flatten.length

theorem coarsefStep_ok {F done rest : List (Nat × Neighbour)} (hF : FacesOk h expct nblk F) {b : Nat} {bn : Neighbours} {n : Nat} {nb : Neighbour}
    {s : FaceState} (hn : bn.neigh[n]? = some (some nb)) (hFe : F = done ++ (b, nb) :: rest) (hP : CfInv nblk F.length done s) :
    ∃ s', coarsefStep b bn n s = .ok s' ∧ CfInv nblk F.length (done ++ [(b, nb)]) s' := by
  have hm : (b, nb) ∈ F := by rw [hFe]; simp
  have hlt : done.length < F.length := by rw [hFe]; simp
  obtain ⟨R, hR⟩ := hP.nb
  have hRl : (pairs done).length + R.length = 2 * F.length := by rw [← List.length_append, ← hR, hP.nlen]
  rw [pairs_length] at hRl
  obtain ⟨r0, r1, R', rfl⟩ : ∃ r0 r1 R', R = r0 :: r1 :: R' := by
    match R, hRl with
    | [], h => simp at h; omega
    | [_], h => simp at h; omega
    | a :: b :: l, _ => exact ⟨a, b, l, rfl⟩
  obtain ⟨ia1, e1, c1, l1⟩ := bump_counted hP.cnt done.length (hF.fst _ hm)
  obtain ⟨ia2, e2, c2, l2⟩ := bumpOther_ok c1 nb.b (hF.snd _ hm) done.length
  unfold coarsefStep
  rw [rd_of_getElem? hn, bind_ok]
  simp only
  rw [wr_ok (by rw [hP.cf, hP.nlen]; omega), bind_ok, wr_ok (by rw [List.length_set, hP.cf, hP.nlen]; omega), bind_ok, e1, bind_ok, e2, bind_ok,
    countConns_ok (hF.sets _ hm), bind_ok]
  refine ⟨_, rfl, by simp [hP.cf], ⟨R', ?_⟩, ?_, ?_, by simp only; rw [l2, l1]; exact hP.blen, ?_⟩
  · simp only
    rw [hR, hP.cf, pairs_snoc, List.set_append_right _ _ (by rw [pairs_length]; omega), pairs_length, Nat.add_zero, Nat.sub_self, List.set_cons_zero,
      List.set_append_right _ _ (by rw [pairs_length]; omega), pairs_length, show 2 * done.length + 1 - 2 * done.length = 1 by omega]
    simp
  · simp [hP.nlen]
  · rw [items_snoc]
    unfold faceItems
    simp only
    rw [List.append_assoc] at c2
    exact c2
  · simp [hP.sub, subs]

theorem fill_new {α : Type} (junk : Nat → α) (n : Nat) (x : α) : fill n x (realloc junk [] n) = .ok (List.replicate n x) := by
  rw [fill_ok n x _ (by simp)]
  rw [List.drop_eq_nil_of_le (by simp), List.append_nil]

theorem buildCoarsef_ok {tab : List (Option Neighbours)} {LL : List (List Neighbour)}
    (hrep : ∀ a : Nat, a < nblk → ∃ x L, tab[a]? = some x ∧ LL[a]? = some L ∧ Slot x L)
    (hF : FacesOk h expct nblk (facesUpTo LL nblk)) :
    ∃ pos : List Nat, buildCoarsef nblk tab (List.replicate (2 * (facesUpTo LL nblk).length) intMin) (List.replicate (nblk + 1) 0) =
        .ok (pairs (facesUpTo LL nblk), pos, start (items (facesUpTo LL nblk)) nblk, (subs (facesUpTo LL nblk)).flatten.length) ∧
      pos.length = nblk + 1 ∧ pos[0]? = some 0 ∧ ∀ r : Nat, r < nblk → pos[r + 1]? = some (start (items (facesUpTo LL nblk)) r) := by
  obtain ⟨s, es, hP⟩ := nested_inv hrep (coarsefBlock tab) coarsefStep (CfInv nblk (facesUpTo LL nblk).length)
    (s := { coarsef := 0, neighbours := List.replicate (2 * (facesUpTo LL nblk).length) intMin, blkfacepos := List.replicate (nblk + 1) 0, nsubf := 0 })
    ⟨rfl, ⟨_, rfl⟩, by simp, counted_replicate nblk, by simp, rfl⟩
    (by
      intro b done t hb _
      unfold coarsefBlock
      rw [rd_of_getElem? hb, bind_ok])
    (by
      intro b bn done t hb _
      unfold coarsefBlock
      rw [rd_of_getElem? hb, bind_ok])
    (fun b bn n nb done rest t hn hFe hP => coarsefStep_ok hF hn hFe hP)
  obtain ⟨pos, ep, pl, p0, pr⟩ := accumulate_ok hP.cnt
  have hbl := hP.blen
  refine ⟨pos.set 0 0, ?_, by simp; omega, by rw [List.getElem?_set_self (by omega)], ?_⟩
  · unfold buildCoarsef
    rw [es, bind_ok, ep, bind_ok, rd_of_getElem? p0, bind_ok, wr_ok (by omega), bind_ok, hP.sub]
    congr 2
    obtain ⟨R, hR⟩ := hP.nb
    have hl := hP.nlen
    rw [hR, List.length_append, pairs_length] at hl
    rw [hR, List.eq_nil_of_length_eq_zero (show R.length = 0 by omega), List.append_nil]
  · intro r hr
    rw [List.getElem?_set_ne (by omega)]
    exact pr r hr

theorem pushFace_ok {all done rest : List (Nat × Nat)} {s : List Nat × List Nat} {b : Int} {f : Nat} (hb : b < nblk)
    (hall : all = done ++ ((if b ≥ 0 then [(b.toNat, f)] else []) ++ rest)) (hP : Pushing nblk all done s) :
    ∃ s', pushFace b f s = .ok s' ∧ Pushing nblk all (done ++ if b ≥ 0 then [(b.toNat, f)] else []) s' ∧ s'.1[0]? = s.1[0]? ∧
      s'.1.length = s.1.length ∧ s'.2.length = s.2.length := by
  unfold pushFace
  by_cases h0 : b ≥ 0
  · rw [if_pos h0] at hall
    rw [if_pos h0, if_pos h0, show (b + 1).toNat = b.toNat + 1 by omega]
    exact push_step (by simpa using hall) (by omega) hP
  · rw [if_neg h0, if_neg h0, List.append_nil]
    exact ⟨s, rfl, hP, rfl, rfl, rfl⟩

theorem pushLoop_ok {F : List (Nat × Neighbour)} (hF : FacesOk h expct nblk F) {pos ja : List Nat} (hl : pos.length = nblk + 1)
    (h0 : pos[0]? = some 0) (hp : ∀ r : Nat, r < nblk → pos[r + 1]? = some (start (items F) r)) (hj : ja.length = start (items F) nblk) :
    loop F.length (pushStep (pairs F)) (pos, ja) = .ok (boundaries 0 (rows nblk (items F)), (rows nblk (items F)).flatten) := by
  obtain ⟨s, es, hP, hz, hl1, hl2⟩ := loop_inv (n := F.length) (s := (pos, ja)) (f := pushStep (pairs F))
    (fun k s => Pushing nblk (items F) (items (F.take k)) s ∧ s.1[0]? = some 0 ∧ s.1.length = nblk + 1 ∧ s.2.length = start (items F) nblk)
    ⟨pushing_init (by omega) hp (by omega), h0, hl, hj⟩
    (by
      rintro f s hf ⟨hP, hz, hl1, hl2⟩
      have hg := List.getElem?_eq_getElem hf
      have hm := List.getElem_mem hf
      obtain ⟨g1, g2⟩ := pairs_get hg
      have hsp : F = F.take f ++ F[f] :: F.drop (f + 1) := by rw [← List.drop_eq_getElem_cons hf, List.take_append_drop]
      have htl : (F.take f).length = f := by simp; omega
      obtain ⟨rest, hr⟩ := items_split hsp
      rw [htl] at hr
      have hit : items (F.take (f + 1)) = items (F.take f) ++ faceItems F[f] f := by
        rw [List.take_add_one, hg, Option.toList_some, items_snoc, htl]
      unfold faceItems at hr hit
      obtain ⟨s1, e1, P1, a1, a2, a3⟩ := pushFace_ok (nblk := nblk) (b := (F[f].1 : Int)) (f := f) (done := items (F.take f))
        (rest := (if F[f].2.b ≥ 0 then [(F[f].2.b.toNat, f)] else []) ++ rest) (by have := hF.fst _ hm; omega)
        (by rw [if_pos (Int.natCast_nonneg _)]; simpa using hr) hP
      rw [if_pos (Int.natCast_nonneg _)] at P1
      obtain ⟨s2, e2, P2, b1, b2, b3⟩ := pushFace_ok (nblk := nblk) (b := F[f].2.b) (f := f) (rest := rest) (hF.snd _ hm)
        (by rw [hr]; simp) P1
      refine ⟨s2, ?_, ?_, by rw [b1, a1]; exact hz, by omega, by omega⟩
      · unfold pushStep
        rw [Nat.add_zero, rd_of_getElem? g1, bind_ok, rd_of_getElem? g2, bind_ok, check_ok (by simpa using hF.ne _ hm), bind_ok, e1, bind_ok, e2]
      · rw [hit]
        simpa using P2)
  rw [List.take_length] at hP
  obtain ⟨d1, d2⟩ := push_done hP
  rw [es]
  have q1 : s.1 = boundaries 0 (rows nblk (items F)) := by
    rw [← d1, List.take_of_length_le (by simp; omega)]
    apply List.ext_getElem?
    intro i
    cases i with
    | zero => rw [List.getElem?_set_self (by omega), hz]
    | succ i => rw [List.getElem?_set_ne (by omega)]
  have q2 : s.2 = (rows nblk (items F)).flatten := by
    rw [d2, List.drop_eq_nil_of_le (by omega), List.append_nil]
  rw [← q1, ← q2]

theorem copySet_ok {t : HashSet.Table} (ht : t.s.length = t.m) {q R : List Int} (hR : (HashSet.keys t.s).length ≤ R.length) :
    copySet t (q.length, q ++ R) = .ok ((q ++ HashSet.keys t.s).length, (q ++ HashSet.keys t.s) ++ R.drop (HashSet.keys t.s).length) := by
  unfold copySet
  obtain ⟨s, es, rfl⟩ := loop_inv (n := t.m) (s := (q.length, q ++ R))
    (f := fun i (s : Nat × List Int) => do
      let x ← rd t.s i
      if x ≠ -1 then do
        let sf ← wr s.2 s.1 x
        .ok (s.1 + 1, sf)
      else .ok s)
    (fun i s => s = ((q ++ HashSet.keys (t.s.take i)).length, (q ++ HashSet.keys (t.s.take i)) ++ R.drop (HashSet.keys (t.s.take i)).length))
    (by simp [HashSet.keys])
    (by
      rintro i s hi rfl
      have hil : i < t.s.length := by omega
      have hg := List.getElem?_eq_getElem hil
      rw [rd_of_getElem? hg, bind_ok]
      have hk : HashSet.keys (t.s.take (i + 1)) = HashSet.keys (t.s.take i) ++ if t.s[i] ≠ -1 then [t.s[i]] else [] := by
        unfold HashSet.keys
        rw [List.take_add_one, hg, List.filter_append]
        congr 1
        by_cases hx : t.s[i] = -1 <;> simp [hx]
      have hle : (HashSet.keys (t.s.take (i + 1))).length ≤ (HashSet.keys t.s).length := by
        unfold HashSet.keys
        exact (List.Sublist.filter _ (List.take_sublist _ _)).length_le
      by_cases hx : t.s[i] ≠ -1
      · rw [if_pos hx] at hk
        rw [if_pos hx]
        simp only
        have hlt : (HashSet.keys (t.s.take i)).length < R.length := by
          rw [hk, List.length_append] at hle
          simp at hle
          omega
        rw [wr_ok (by simp; omega), bind_ok]
        refine ⟨_, rfl, ?_⟩
        rw [hk, ← List.append_assoc, List.set_append_right _ _ (Nat.le_refl _), Nat.sub_self, List.drop_eq_getElem_cons hlt, List.set_cons_zero]
        simp [Nat.add_assoc]
      · rw [if_neg hx] at hk
        rw [if_neg hx, hk, List.append_nil]
        exact ⟨_, rfl, rfl⟩)
  rw [← ht, List.take_length] at es
  rw [ht] at es
  exact es

structure SubInv (ncf nsub : Nat) (done : List (Nat × Neighbour)) (s : SubState) : Prop where
  cf : s.coarsef = done.length
  pos : s.subpos = (subs done).flatten.length
  val : s.valid = true
  plen : s.subfacepos.length = ncf + 1
  bnd : s.subfacepos.take (done.length + 1) = boundaries 0 (subs done)
  sf : ∃ R, s.subfaces = (subs done).flatten ++ R
  slen : s.subfaces.length = nsub

theorem subStep_ok {F done rest : List (Nat × Neighbour)} (he : 0 < expct) (hF : FacesOk h expct nblk F) {b : Nat} {bn : Neighbours} {n : Nat} {nb : Neighbour}
    {s : SubState} (hn : bn.neigh[n]? = some (some nb)) (hFe : F = done ++ (b, nb) :: rest) (hP : SubInv F.length (subs F).flatten.length done s) :
    ∃ s', subStep bn n s = .ok s' ∧ SubInv F.length (subs F).flatten.length (done ++ [(b, nb)]) s' := by
  have hm : (b, nb) ∈ F := by rw [hFe]; simp
  have hlt : done.length < F.length := by rw [hFe]; simp
  obtain ⟨q, ss, e, hI⟩ := (hF.sets _ hm).some he
  obtain ⟨R, hR⟩ := hP.sf
  have hc : nb.conns = HashSet.keys ss := by simp only at e; unfold Neighbour.conns; rw [e]
  have hsl := hP.slen
  have htot : (subs F).flatten.length = (subs done).flatten.length + nb.conns.length + (subs rest).flatten.length := by
    rw [hFe]; simp [subs]; omega
  have hRl : nb.conns.length ≤ R.length := by
    rw [hR, List.length_append] at hsl
    omega
  have hcopy := copySet_ok (t := { m := 2 ^ q, s := ss }) hI.len (q := (subs done).flatten) (R := R) (by simp only; rw [← hc]; exact hRl)
  simp only at hcopy e
  rw [← hc, ← hR, ← hP.pos] at hcopy
  have hsub : (subs (done ++ [(b, nb)])) = subs done ++ [nb.conns] := by simp [subs]
  have hfl : (subs (done ++ [(b, nb)])).flatten = (subs done).flatten ++ nb.conns := by rw [hsub]; simp
  unfold subStep
  rw [if_pos hP.val, rd_of_getElem? hn, bind_ok]
  simp only
  rw [e]
  simp only
  rw [hcopy, bind_ok]
  simp only
  rw [wr_ok (by rw [hP.cf, hP.plen]; omega), bind_ok]
  refine ⟨_, rfl, by simp [hP.cf], by simp only; rw [hfl], rfl, by simp [hP.plen], ?_, ⟨_, by simp only; rw [hfl]⟩, ?_⟩
  · simp only
    rw [List.length_append, List.length_singleton, hP.cf, take_set_succ (by rw [hP.plen]; omega), hP.bnd, hsub, boundaries_snoc]
    simp
  · simp only [List.length_append, List.length_drop]
    rw [hR, List.length_append] at hsl
    omega

theorem subLoop_ok {tab : List (Option Neighbours)} {LL : List (List Neighbour)} (he : 0 < expct)
    (hrep : ∀ a : Nat, a < nblk → ∃ x L, tab[a]? = some x ∧ LL[a]? = some L ∧ Slot x L)
    (hF : FacesOk h expct nblk (facesUpTo LL nblk)) {sf : List Int} (hsf : sf.length = (subs (facesUpTo LL nblk)).flatten.length) :
    ∃ r, loop nblk (subBlock tab) { coarsef := 0, subpos := 0, valid := true, subfacepos := List.replicate ((facesUpTo LL nblk).length + 1) 0, subfaces := sf } = .ok r ∧
      r.valid = true ∧ r.subfacepos = boundaries 0 (subs (facesUpTo LL nblk)) ∧ r.subfaces = (subs (facesUpTo LL nblk)).flatten := by
  obtain ⟨r, er, hP⟩ := nested_inv hrep (subBlock tab) (fun _ => subStep) (SubInv (facesUpTo LL nblk).length (subs (facesUpTo LL nblk)).flatten.length)
    (s := { coarsef := 0, subpos := 0, valid := true, subfacepos := List.replicate ((facesUpTo LL nblk).length + 1) 0, subfaces := sf })
    ⟨rfl, rfl, rfl, by simp, by simp [subs, boundaries], ⟨sf, rfl⟩, hsf⟩
    (by
      intro b done t hb hP
      unfold subBlock
      rw [if_pos hP.val, rd_of_getElem? hb, bind_ok])
    (by
      intro b bn done t hb hP
      unfold subBlock
      rw [if_pos hP.val, rd_of_getElem? hb, bind_ok])
    (fun b bn n nb done rest t hn hFe hP => subStep_ok he hF hn hFe hP)
  refine ⟨r, er, hP.val, ?_, ?_⟩
  · rw [← hP.bnd, List.take_of_length_le (by rw [hP.plen])]
  · obtain ⟨R, hR⟩ := hP.sf
    have hl := hP.slen
    rw [hR, List.length_append] at hl
    rw [hR, List.eq_nil_of_length_eq_zero (show R.length = 0 by omega), List.append_nil]

/-- The finished tables. -/
theorem build_ok {ji : Nat → Int} {jk : Nat → Nat} {tab : List (Option Neighbours)} {LL : List (List Neighbour)}
    (hrep : ∀ a : Nat, a < nblk → ∃ x L, tab[a]? = some x ∧ LL[a]? = some L ∧ Slot x L)
    (hF : FacesOk h expct nblk (facesUpTo LL nblk)) :
    build ji jk (facesUpTo LL nblk).length nblk tab =
      .ok { nblocks := nblk, nfaces := (facesUpTo LL nblk).length, neighbours := pairs (facesUpTo LL nblk),
            blkfacepos := boundaries 0 (rows nblk (items (facesUpTo LL nblk))), blkfaces := (rows nblk (items (facesUpTo LL nblk))).flatten,
            sub := if (subs (facesUpTo LL nblk)).flatten.length > 0 then
                some (boundaries 0 (subs (facesUpTo LL nblk)), (subs (facesUpTo LL nblk)).flatten) else none } := by
  obtain ⟨pos, e1, l1, z1, p1⟩ := buildCoarsef_ok hrep hF
  unfold build
  rw [fill_new, bind_ok, fill_new, bind_ok, e1, bind_ok]
  simp only
  have hpush := pushLoop_ok hF l1 z1 p1 (ja := realloc jk [] (start (items (facesUpTo LL nblk)) nblk)) (by simp)
  unfold allocSub buildFinal
  by_cases hs : (subs (facesUpTo LL nblk)).flatten.length > 0
  · have he : 0 < expct := by
      by_contra he
      have : (subs (facesUpTo LL nblk)).flatten = [] := by
        rw [List.flatten_eq_nil_iff]
        intro l hl
        obtain ⟨x, hx, rfl⟩ := List.mem_map.1 hl
        have := (hF.sets x hx).none he
        unfold Neighbour.conns
        rw [this]
      rw [this] at hs
      simp at hs
    obtain ⟨r, er, v, q1, q2⟩ := subLoop_ok he hrep hF (sf := realloc ji [] (subs (facesUpTo LL nblk)).flatten.length) (by simp)
    rw [if_pos hs, fill_new, bind_ok, bind_ok, hpush, bind_ok]
    simp only
    rw [er, bind_ok, bind_ok]
    simp only
    rw [if_pos v, if_pos hs, q1, q2]
  · rw [if_neg hs, bind_ok, hpush, bind_ok]
    simp only
    rw [bind_ok, if_pos rfl, if_neg hs]

end Opm.CoarseConn
