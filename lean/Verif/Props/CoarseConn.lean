import Verif.Proofs.CoarseBuild
import Verif.Props.HashSet
/-!
# C44: coarse grid connections represent the fine faces between blocks exactly
-/

namespace Opm.CoarseConn
open Opm Opm.Bucket Opm.Graph

theorem facesUpTo_sorted {h : Int → Nat → Nat} {expct : Int} {LL : List (List Neighbour)} {k : Nat} (hg : ∀ a : Nat, a < k → Good h expct (LL.getD a [])) :
    (facesUpTo LL k).Pairwise (fun x y => x.1 < y.1 ∨ (x.1 = y.1 ∧ x.2.b < y.2.b)) := by
  induction k with
  | zero => simp [facesUpTo]
  | succ k ih =>
    simp only [facesUpTo]
    rw [List.pairwise_append]
    refine ⟨ih (fun a ha => hg a (by omega)), ?_, ?_⟩
    · rw [List.pairwise_map]
      exact (hg k (by omega)).sorted.imp (fun hxy => .inr ⟨rfl, hxy⟩)
    · rintro ⟨a, nb⟩ hx ⟨c, nb'⟩ hy
      obtain ⟨z, _, hz⟩ := List.mem_map.1 hy
      cases hz
      exact .inl (mem_facesUpTo.1 hx).1

/-- **C44.**  For every fine neighbourship and partition (valid as in `Ok`), every hash function with values
inside the table, every contents of uninitialised memory and every expected number of connections, the
coarse topology is created without undefined behaviour or failing assertion, and

* it is the coarse topology determined by the fine faces (`IsCoarse`): one coarse face for each pair of
  neighbouring blocks and for each block with the outside, and `blkfacepos`/`blkfaces` list for each block
  exactly its coarse faces;
* if sub-faces were asked for (`expct_nconn > 0`) and there is a coarse face, the sub-face tables list for each
  coarse face exactly the fine faces between its two blocks, each once; otherwise they are `NULL`. -/
theorem coarse_topology_exact (h : Int → Nat → Nat) (hh : ∀ k : Int, 0 ≤ k → ∀ m, 0 < m → h k m < m) (jn : Nat → Option Neighbour)
    (ji : Nat → Int) (jk : Nat → Nat) {nc nf : Nat} {expct : Int} (hx : expct < 2 ^ 63) {p neighbours : List Int} (hk : Ok nc nf p neighbours) :
    ∃ t, create h jn ji jk nc nf expct p neighbours = .ok (some t) ∧ IsCoarse nf p neighbours t ∧
      ((0 < expct ∧ 0 < t.nfaces → ∃ pos sf, t.sub = some (pos, sf) ∧ IsSub nf p neighbours t pos sf) ∧
        (¬ (0 < expct ∧ 0 < t.nfaces) → t.sub = none)) := by
  obtain ⟨nblk, en, hnb⟩ := countBlocks_ok p
  obtain ⟨tab, LL, ed, hLl, htl, hLL⟩ := deriveBlockFaces_ok (jn := jn) hh hx hk hnb
  have hrep : ∀ a : Nat, a < nblk → ∃ x L, tab[a]? = some x ∧ LL[a]? = some L ∧ Slot x L := by
    intro a ha
    obtain ⟨x, L, e1, e2, e3, _⟩ := hLL a ha
    exact ⟨x, L, e1, e2, e3⟩
  have hB : ∀ a : Nat, a < nblk → BlockOk h expct p neighbours nf a (LL.getD a []) := by
    intro a ha
    obtain ⟨x, L, _, e2, _, e4⟩ := hLL a ha
    rw [List.getD_eq_getElem?_getD, e2, Option.getD_some]
    exact e4
  -- a coarse face and the fine faces stored under it
  have hface : ∀ x ∈ facesUpTo LL nblk, x.1 < nblk ∧ (x.2.b = -1 ∨ ((x.1 : Int) < x.2.b ∧ x.2.b < nblk)) ∧ (∃ f, f < nf ∧ key p neighbours f = ((x.1 : Int), x.2.b)) ∧
      SetOk h expct x.2 ∧ (0 < expct → ∀ z : Int, z ∈ x.2.conns ↔ ∃ f : Nat, f < nf ∧ z = f ∧ key p neighbours f = ((x.1 : Int), x.2.b)) := by
    rintro ⟨a, nb⟩ hx
    obtain ⟨ha, hnbm⟩ := mem_facesUpTo.1 hx
    have hBa := hB a ha
    obtain ⟨f, hf, hkf, hne⟩ := (hBa.blocks nb.b).1 ⟨nb, hnbm, rfl⟩
    have hkk := hk.key hf (by rw [hkf]; exact hne)
    rw [hkf] at hkk
    refine ⟨ha, ?_, ⟨f, hf, hkf⟩, hBa.good.sets nb hnbm, ?_⟩
    · rcases hkk.2.2 with h1 | ⟨h1, h2⟩
      · exact .inl h1
      · refine .inr ⟨h1, ?_⟩
        simp only at h1 h2 ⊢
        obtain ⟨m, hm⟩ := Int.eq_ofNat_of_zero_le (show 0 ≤ nb.b by omega)
        have := (hnb m).2 ⟨_, h2, by omega⟩
        omega
    · intro he z
      have hc := hBa.conns he nb.b z
      constructor
      · intro hz
        obtain ⟨f, hf, e, hkf, _⟩ := hc.1 ⟨nb, hnbm, rfl, hz⟩
        exact ⟨f, hf, e, hkf⟩
      · rintro ⟨f, hf, e, hkf⟩
        obtain ⟨nb', hm', hb', hz⟩ := hc.2 ⟨f, hf, e, hkf, hne⟩
        have : nb' = nb := by
          obtain ⟨i, hi, rfl⟩ := List.mem_iff_getElem.1 hnbm
          obtain ⟨j, hj, rfl⟩ := List.mem_iff_getElem.1 hm'
          have hs := List.pairwise_iff_getElem.1 hBa.good.sorted
          rcases Nat.lt_trichotomy i j with hij | rfl | hij
          · have := hs i j hi hj hij; omega
          · rfl
          · have := hs j i hj hi hij; omega
        rw [← this]; exact hz
  have hF : FacesOk h expct nblk (facesUpTo LL nblk) := by
    refine ⟨fun x hx => (hface x hx).1, fun x hx => ?_, fun x hx => ?_, fun x hx => (hface x hx).2.2.2.1⟩
    · obtain ⟨h1, h2, _⟩ := hface x hx
      omega
    · obtain ⟨h1, h2, _⟩ := hface x hx
      omega
  have hsorted : (facesUpTo LL nblk).Pairwise (fun x y => x.1 < y.1 ∨ (x.1 = y.1 ∧ x.2.b < y.2.b)) :=
    facesUpTo_sorted (fun a ha => (hB a ha).good)
  have hlen : (facesUpTo LL nblk).length = LL.flatten.length := by
    rw [facesUpTo_length LL (by omega), ← hLl, List.take_length]
  have hcomp : ∀ (f : Nat) (a b : Int), f < nf → key p neighbours f = (a, b) → a ≠ b → ∃ (j : Nat) (x : Nat × Neighbour), (facesUpTo LL nblk)[j]? = some x ∧
      (x.1 : Int) = a ∧ x.2.b = b := by
    intro f a b hf hkf hne
    obtain ⟨h1, h2, _⟩ := hk.key hf (by rw [hkf]; exact hne)
    rw [hkf] at h1 h2
    obtain ⟨n, rfl⟩ := Int.eq_ofNat_of_zero_le h1
    have hn : n < nblk := (hnb n).2 ⟨_, h2, Int.le_refl _⟩
    obtain ⟨nb, hm, hb⟩ := ((hB n hn).blocks b).2 ⟨f, hf, hkf, hne⟩
    obtain ⟨j, hj⟩ := List.mem_iff_getElem?.1 (mem_facesUpTo.2 ⟨hn, hm⟩)
    exact ⟨j, _, hj, rfl, hb⟩
  have hbuild := build_ok (ji := ji) (jk := jk) hrep hF
  refine ⟨{ nblocks := nblk, nfaces := (facesUpTo LL nblk).length, neighbours := pairs (facesUpTo LL nblk),
            blkfacepos := boundaries 0 (rows nblk (items (facesUpTo LL nblk))), blkfaces := (rows nblk (items (facesUpTo LL nblk))).flatten,
            sub := if (subs (facesUpTo LL nblk)).flatten.length > 0 then
                some (boundaries 0 (subs (facesUpTo LL nblk)), (subs (facesUpTo LL nblk)).flatten) else none }, ?_, ?_, ?_⟩
  rotate_left
  · generalize facesUpTo LL nblk = F at *
    -- reading the neighbour table
    have hread : ∀ (j : Nat) (a b : Int), j < F.length ∧ (pairs F)[2 * j]? = some a ∧ (pairs F)[2 * j + 1]? = some b ↔ ∃ x, F[j]? = some x ∧ a = (x.1 : Int) ∧ b = x.2.b := by
      intro j a b
      constructor
      · rintro ⟨hj, h1, h2⟩
        have hg := List.getElem?_eq_getElem hj
        obtain ⟨g1, g2⟩ := pairs_get hg
        rw [g1] at h1; rw [g2] at h2
        exact ⟨_, hg, (Option.some.inj h1).symm, (Option.some.inj h2).symm⟩
      · rintro ⟨x, hx, rfl, rfl⟩
        exact ⟨(List.getElem?_eq_some_iff.1 hx).1, pairs_get hx⟩
    have huniq : ∀ (j j' : Nat) (x y : Nat × Neighbour), F[j]? = some x → F[j']? = some y → x.1 = y.1 → x.2.b = y.2.b → j = j' := by
      intro j j' x y hx hy h1 h2
      obtain ⟨hj, rfl⟩ := List.getElem?_eq_some_iff.1 hx
      obtain ⟨hj', rfl⟩ := List.getElem?_eq_some_iff.1 hy
      have hs := List.pairwise_iff_getElem.1 hsorted
      rcases Nat.lt_trichotomy j j' with hij | e | hij
      · have := hs j j' hj hj' hij; omega
      · exact e
      · have := hs j' j hj' hj hij; omega
    constructor
    · exact hnb
    · exact pairs_length F
    · intro j hj
      have hg := List.getElem?_eq_getElem (show j < F.length from hj)
      have hm := List.getElem_mem (show j < F.length from hj)
      obtain ⟨h1, h2, ⟨f, hf, hkf⟩, _⟩ := hface _ hm
      refine ⟨F[j].1, F[j].2.b, ?_, h1, h2, f, hf, ?_⟩
      · exact (hread j _ _).2 ⟨_, hg, rfl, rfl⟩
      · exact (hk.between_iff hf (by omega) (by omega)).2 hkf
    · intro f a b hf hbt hne
      rcases hk.between_key hf hbt with e | e
      · obtain ⟨j, x, hx, h1, h2⟩ := hcomp f a b hf e hne
        exact ⟨j, .inl ((hread j a b).2 ⟨x, hx, h1.symm, h2.symm⟩)⟩
      · obtain ⟨j, x, hx, h1, h2⟩ := hcomp f b a hf e (Ne.symm hne)
        exact ⟨j, .inr ((hread j b a).2 ⟨x, hx, h1.symm, h2.symm⟩)⟩
    · intro j j' a b hj hj'
      obtain ⟨x, hx, ha, hb⟩ := (hread j a b).1 hj
      rcases hj' with hj' | hj'
      · obtain ⟨y, hy, ha', hb'⟩ := (hread j' a b).1 hj'
        exact huniq j j' x y hx hy (by omega) (by omega)
      · obtain ⟨y, hy, ha', hb'⟩ := (hread j' b a).1 hj'
        obtain ⟨_, q1, _⟩ := hface x (List.mem_of_getElem? hx)
        obtain ⟨_, q2, _⟩ := hface y (List.mem_of_getElem? hy)
        omega
    · show (boundaries 0 (rows nblk (items F)))[0]? = some 0
      rw [boundaries_rows_get nblk _ (Nat.zero_le _)]; rfl
    · show (boundaries 0 (rows nblk (items F))).length = nblk + 1
      rw [boundaries_length, rows_length]
    · show (boundaries 0 (rows nblk (items F)))[nblk]? = some (rows nblk (items F)).flatten.length
      rw [boundaries_rows_get nblk _ (Nat.le_refl _), start_eq]
    · intro b hb
      obtain ⟨q, q', h1, h2, h3⟩ := slice_boundaries (rows_get (items := items F) (show b < nblk from hb))
      refine ⟨q, q', _, h1, h2, h3, row_sorted hF.ne b, ?_⟩
      intro j
      rw [mem_rowOf, mem_items]
      constructor
      · rintro ⟨x, hx, rfl | h⟩
        · exact ⟨x.2.b, .inl ((hread j _ _).2 ⟨x, hx, rfl, rfl⟩)⟩
        · exact ⟨(x.1 : Int), .inr ((hread j _ _).2 ⟨x, hx, rfl, h.symm⟩)⟩
      · rintro ⟨z, hz | hz⟩
        · obtain ⟨x, hx, e1, e2⟩ := (hread j _ _).1 hz
          exact ⟨x, hx, .inl (by omega)⟩
        · obtain ⟨x, hx, e1, e2⟩ := (hread j _ _).1 hz
          exact ⟨x, hx, .inr e2.symm⟩
  · generalize facesUpTo LL nblk = F at *
    have hpos : 0 < expct ∧ 0 < F.length ↔ (subs F).flatten.length > 0 := by
      constructor
      · rintro ⟨he, hl⟩
        obtain ⟨x, F', rfl⟩ : ∃ x F', F = x :: F' := by
          cases F with
          | nil => simp at hl
          | cons x F' => exact ⟨x, F', rfl⟩
        obtain ⟨_, _, ⟨f, hf, hkf⟩, _, hc⟩ := hface x (by simp)
        have := (hc he (f : Int)).2 ⟨f, hf, rfl, hkf⟩
        have := List.length_pos_of_mem this
        simp [subs]; omega
      · intro hl
        refine ⟨?_, ?_⟩
        · by_contra he
          have : (subs F).flatten = [] := by
            rw [List.flatten_eq_nil_iff]
            intro l hl
            obtain ⟨x, hx, rfl⟩ := List.mem_map.1 hl
            have := (hF.sets x hx).none he
            unfold Neighbour.conns
            rw [this]
          rw [this] at hl
          simp at hl
        · cases F with
          | nil => simp [subs] at hl
          | cons x F' => simp
    constructor
    · intro hc
      have hc' := hpos.1 hc
      refine ⟨_, _, if_pos hc', ?_⟩
      have hsl : (subs F).length = F.length := by simp [subs]
      constructor
      · rw [boundaries_get _ _ _ (Nat.zero_le _)]; simp
      · rw [boundaries_length, hsl]
      · show (boundaries 0 (subs F))[F.length]? = _
        rw [boundaries_get _ _ _ (by rw [hsl]), ← hsl, List.take_length, Nat.zero_add]
      · rintro j a b ⟨hj, h1, h2⟩
        have hg := List.getElem?_eq_getElem (show j < F.length from hj)
        have hm := List.getElem_mem (show j < F.length from hj)
        obtain ⟨g1, g2⟩ := pairs_get hg
        have ha : a = (F[j].1 : Int) := by
          have := h1.symm.trans g1; exact Option.some.inj this
        have hb : b = F[j].2.b := by
          have := h2.symm.trans g2; exact Option.some.inj this
        obtain ⟨q, q', s1, s2, s3⟩ := slice_boundaries (cs := subs F) (i := j) (C := F[j].2.conns) (by simp [subs, hg])
        obtain ⟨_, hbb, _, hset, hcn⟩ := hface _ hm
        refine ⟨q, q', _, s1, s2, s3, ?_, ?_⟩
        · obtain ⟨w, s, e, hI⟩ := hset.some hc.1
          unfold Neighbour.conns
          rw [e]
          exact hI.keys_nodup
        · intro x
          rw [hcn hc.1 x]
          constructor
          · rintro ⟨f, hf, e, hkf⟩
            refine ⟨f, hf, e, ?_⟩
            rw [ha, hb]
            exact (hk.between_iff hf (by omega) (by omega)).2 hkf
          · rintro ⟨f, hf, e, hbt⟩
            refine ⟨f, hf, e, ?_⟩
            rw [ha, hb] at hbt
            exact (hk.between_iff hf (by omega) (by omega)).1 hbt
    · intro hc
      exact if_neg (fun hl => hc (hpos.2 hl))
  · unfold create
    rw [← hk.plen, en, bind_ok]
    simp only [Int.toNat_natCast]
    rw [fill_ok _ _ _ (by simp), bind_ok, List.drop_eq_nil_of_le (by simp), List.append_nil, ed, bind_ok]
    simp only
    rw [if_neg (by omega), Int.toNat_natCast, ← hlen, hbuild, bind_ok]

/-- Five cells in three blocks, with two outer faces, three faces between blocks 0 and 1 and faces inside a block. -/
example : Ok 5 8 [0, 0, 1, 2, 1] [-1, 0, 0, 1, 1, 2, 2, 3, 3, -1, 4, 1, 2, 4, 0, 2] where
  plen := rfl
  pos := by decide
  nlen := rfl
  lt := by decide
  inside := by
    intro f hf
    have : ∀ f < 8, 0 ≤ ([-1, 0, 0, 1, 1, 2, 2, 3, 3, -1, 4, 1, 2, 4, 0, 2] : List Int).getD (2 * f) (-1) ∨
      0 ≤ ([-1, 0, 0, 1, 1, 2, 2, 3, 3, -1, 4, 1, 2, 4, 0, 2] : List Int).getD (2 * f + 1) (-1) := by decide
    exact this f hf

/-- The result for that grid (with a simple hash function; the one of the code is covered by `HashSet.hashIdx_lt`). -/
example : create (fun k m => k.toNat % m) (fun _ => none) (fun _ => 77) (fun _ => 99) 5 8 2 [0, 0, 1, 2, 1] [-1, 0, 0, 1, 1, 2, 2, 3, 3, -1, 4, 1, 2, 4, 0, 2] =
    .ok (some { nblocks := 3, nfaces := 4, neighbours := [0, -1, 0, 1, 1, 2, 2, -1], blkfacepos := [0, 2, 4, 6], blkfaces := [0, 1, 1, 2, 2, 3],
                sub := some ([0, 1, 4, 5, 6], [0, 5, 2, 7, 3, 4]) }) := by rfl

/-- The hypothesis on the hash function holds for the one of the code. -/
example : ∀ k : Int, 0 ≤ k → ∀ m, 0 < m → HashSet.hashIdx k m < m := HashSet.hashIdx_lt

end Opm.CoarseConn
