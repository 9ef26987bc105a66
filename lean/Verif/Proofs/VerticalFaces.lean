import Verif.Proofs.ConnFrame
import Verif.Spec.Preprocess
import Verif.Proofs.Tab
import Verif.Core.RowLoop
import Verif.Core.Buf
import Verif.Proofs.UniquePillars
/-!
# Faces between columns of cells
-/

namespace Opm.Cpg
open Opm UniquePoints

/-- The faces of a grid are `fs`, with tags `ts`; the crossings are `qs`. -/
structure GInv (g : PGrid) (fs : List Face) (ts : List Nat) (qs : List (List Int)) : Prop where
  nf : g.nf = fs.length
  nlen : g.nodes.length = g.n
  nodes : g.nodes.take (faceNodes fs).length = faceNodes fs
  clen : 2 * g.m ≤ g.nbr.length
  nbr : g.nbr.take (2 * fs.length) = faceNbrs fs
  plen : g.ptr.length = g.m + 1
  ptr : g.ptr.take (fs.length + 1) = facePtr fs
  tlen : g.tag.length = g.m
  tag : g.tag.take fs.length = ts
  xlen : g.its.length = 4 * g.m ∨ (g.m = 21 ∧ g.its.length = 64)
  its : g.its.take (4 * qs.length) = qs.flatten
  four : ∀ q ∈ qs, q.length = 4
  nn : g.nn = g.np + qs.length
  fits : fs.length ≤ g.m

section
variable {g : PGrid} {fs : List Face} {ts : List Nat} {qs : List (List Int)}

theorem GInv.nodesLe (h : GInv g fs ts qs) : (faceNodes fs).length ≤ g.n := by
  have := congrArg List.length h.nodes
  rw [List.length_take, h.nlen] at this
  omega

theorem GInv.itsLe (h : GInv g fs ts qs) : 4 * qs.length ≤ g.its.length := by
  have := congrArg List.length h.its
  rw [List.length_take, length_flatten4 h.four] at this
  omega

theorem GInv.tsLen (h : GInv g fs ts qs) : ts.length = fs.length := by
  have := congrArg List.length h.tag
  rw [List.length_take, h.tlen] at this
  have := h.fits
  omega

theorem GInv.ptrAt (h : GInv g fs ts qs) : g.ptr[g.nf]? = some (faceNodes fs).length := by
  rw [h.nf, ← facePtr_last fs, ← h.ptr, List.getElem?_take_of_lt (by omega)]

/-- `checkmemory` makes room for the faces of one pair of pillars. -/
theorem checkmemory_ok (J : Junk) (nz : Nat) (h : GInv g fs ts qs) : ∃ g', checkmemory J nz g = .ok g' ∧ GInv g' fs ts qs ∧ g'.np = g.np ∧ g'.nf = g.nf ∧ g'.nn = g.nn ∧
    fs.length + (2 * nz + 2) * (2 * nz + 2) ≤ g'.m ∧ (faceNodes fs).length + 6 * ((2 * nz + 2) * (2 * nz + 2)) ≤ g'.n := by
  have hr : 4 ≤ (2 * nz + 2) * (2 * nz + 2) := Nat.mul_le_mul (show 2 ≤ 2 * nz + 2 by omega) (show 2 ≤ 2 * nz + 2 by omega)
  unfold checkmemory
  generalize (2 * nz + 2) * (2 * nz + 2) = r at hr ⊢
  rw [rd_of_getElem? h.ptrAt, bind_ok]
  have hfit := h.fits
  have hnl := h.nodesLe
  have hxl := h.itsLe
  simp only
  set m := if g.nf + r > g.m then g.m + max (g.m / 2) (2 * r) else g.m with hm
  set n := if (faceNodes fs).length + 6 * r > g.n then g.n + max (g.n / 2) (12 * r) else g.n with hn
  have hm1 : fs.length + r ≤ m ∧ (m = g.m ∨ g.m + 8 ≤ m) := by
    rw [hm, h.nf]; split <;> omega
  have hn1 : (faceNodes fs).length + 6 * r ≤ n ∧ g.n ≤ n := by
    rw [hn]; split <;> omega
  clear_value m n
  clear hm hn
  have hg : (if m = g.m then g else { g with its := realloc J.i g.its (4 * m), nbr := realloc J.i g.nbr (2 * m), ptr := realloc J.n g.ptr (m + 1), tag := realloc J.n g.tag m, m := m }).np = g.np ∧
      (if m = g.m then g else { g with its := realloc J.i g.its (4 * m), nbr := realloc J.i g.nbr (2 * m), ptr := realloc J.n g.ptr (m + 1), tag := realloc J.n g.tag m, m := m }).nf = g.nf ∧
      (if m = g.m then g else { g with its := realloc J.i g.its (4 * m), nbr := realloc J.i g.nbr (2 * m), ptr := realloc J.n g.ptr (m + 1), tag := realloc J.n g.tag m, m := m }).nn = g.nn ∧
      (if m = g.m then g else { g with its := realloc J.i g.its (4 * m), nbr := realloc J.i g.nbr (2 * m), ptr := realloc J.n g.ptr (m + 1), tag := realloc J.n g.tag m, m := m }).n = g.n := by
    split <;> exact ⟨rfl, rfl, rfl, rfl⟩
  -- first step: the arrays for faces
  have step1 : GInv (if m = g.m then g else { g with its := realloc J.i g.its (4 * m), nbr := realloc J.i g.nbr (2 * m), ptr := realloc J.n g.ptr (m + 1), tag := realloc J.n g.tag m, m := m })
      fs ts qs ∧ (if m = g.m then g else { g with its := realloc J.i g.its (4 * m), nbr := realloc J.i g.nbr (2 * m), ptr := realloc J.n g.ptr (m + 1), tag := realloc J.n g.tag m, m := m }).m = m := by
    by_cases e : m = g.m
    · rw [if_pos e]; exact ⟨h, e.symm⟩
    · rw [if_neg e]
      have hge : g.m + 8 ≤ m := hm1.2.resolve_left e
      refine ⟨⟨h.nf, h.nlen, h.nodes, by simp, ?_, by simp, ?_, by simp, ?_, by simp, ?_, h.four, h.nn, by simp only; omega⟩, rfl⟩
      · simp only
        rw [take_realloc (by have := h.clen; omega) (by omega)]
        exact h.nbr
      · simp only
        rw [take_realloc (by rw [h.plen]; omega) (by omega)]
        exact h.ptr
      · simp only
        rw [take_realloc (by rw [h.tlen]; omega) (by omega)]
        exact h.tag
      · simp only
        rw [take_realloc hxl ?_]
        · exact h.its
        · rcases h.xlen with h1 | h1 <;> omega
  generalize (if m = g.m then g else { g with its := realloc J.i g.its (4 * m), nbr := realloc J.i g.nbr (2 * m), ptr := realloc J.n g.ptr (m + 1), tag := realloc J.n g.tag m, m := m }) = g1 at step1 hg ⊢
  obtain ⟨h1, e1⟩ := step1
  obtain ⟨hg1, hg2, hg3, hg4⟩ := hg
  refine ⟨_, rfl, ?_⟩
  by_cases e : n = g1.n
  · rw [if_neg (by rw [not_not]; exact e)]
    exact ⟨h1, hg1, hg2, hg3, by omega, by omega⟩
  · rw [if_pos e]
    refine ⟨⟨h1.nf, by simp, ?_, h1.clen, h1.nbr, h1.plen, h1.ptr, h1.tlen, h1.tag, h1.xlen, h1.its, h1.four, h1.nn, h1.fits⟩, hg1, hg2, hg3, by simp only; omega, by simp only; omega⟩
    simp only
    rw [take_realloc (by rw [h1.nlen, hg4]; omega) (by omega)]
    exact h1.nodes

/-! ### Neighbours, tags -/

theorem set_self {α : Type _} {l : List α} {k : Nat} {x : α} (h : l[k]? = some x) : l.set k x = l := by
  have hk : k < l.length := by by_contra hc; rw [List.getElem?_eq_none (by omega)] at h; cases h
  apply List.ext_getElem?
  intro t
  rw [getElem?_set_if hk]
  split
  · rename_i e; rw [e, h]
  · rfl

/-- The cell number in the grid of cell `v` of column `(i, j)`. -/
def cellAt (nx ny : Nat) (i j v : Int) : Int := if ((i < 0 ∨ i ≥ nx) ∨ (j < 0 ∨ j ≥ ny)) ∨ v = -1 then -1 else i + nx * (j + ny * v)

theorem linearindex_ok {nx ny nz : Nat} {i j k : Int} (hi : 0 ≤ i ∧ i < nx) (hj : 0 ≤ j ∧ j < ny) (hk : 0 ≤ k ∧ k < nz) : linearindex nx ny nz i j k = .ok (i + nx * (j + ny * k)) := by
  unfold linearindex
  rw [check_ok (decide_eq_true hi.1), bind_ok, check_ok (decide_eq_true hj.1), bind_ok, check_ok (decide_eq_true hk.1), bind_ok, check_ok (decide_eq_true hi.2), bind_ok,
    check_ok (decide_eq_true hj.2), bind_ok, check_ok (decide_eq_true hk.2), bind_ok]

theorem computeCellIndex_ok {nx ny nz : Nat} {i j : Int} {nbr : List Int} {off cnt : Nat} (hl : ∀ k, k < cnt → off + 2 * k < nbr.length)
    (hv : ∀ k, k < cnt → ∃ v, nbr[off + 2 * k]? = some v ∧ (v = -1 ∨ (0 ≤ v ∧ v < nz))) :
    ∃ r, computeCellIndex nx ny nz i j nbr off cnt = .ok r ∧ r.length = nbr.length ∧ (∀ k v, k < cnt → nbr[off + 2 * k]? = some v → r[off + 2 * k]? = some (cellAt nx ny i j v)) ∧
      ∀ t, (∀ k, k < cnt → t ≠ off + 2 * k) → r[t]? = nbr[t]? := by
  have body : ∀ (f : Nat → List Int → M (List Int)), (∀ k b v, k < cnt → b.length = nbr.length → b[off + 2 * k]? = some v → nbr[off + 2 * k]? = some v →
      (v = -1 ∨ (0 ≤ v ∧ v < nz)) → ∃ b', f k b = .ok b' ∧ b' = b.set (off + 2 * k) (cellAt nx ny i j v)) →
      ∃ r, loop cnt f nbr = .ok r ∧ r.length = nbr.length ∧ (∀ k v, k < cnt → nbr[off + 2 * k]? = some v → r[off + 2 * k]? = some (cellAt nx ny i j v)) ∧
      ∀ t, (∀ k, k < cnt → t ≠ off + 2 * k) → r[t]? = nbr[t]? := by
    intro f hf
    obtain ⟨r, e, h1, h2, h3⟩ := loop_inv (n := cnt) (f := f) (s := nbr) (fun k (r : List Int) => r.length = nbr.length ∧
      (∀ k' v, k' < k → nbr[off + 2 * k']? = some v → r[off + 2 * k']? = some (cellAt nx ny i j v)) ∧ ∀ t, (∀ k', k' < k → t ≠ off + 2 * k') → r[t]? = nbr[t]?)
      ⟨rfl, by intro k v h; omega, fun _ _ => rfl⟩ (by
        rintro k b hk ⟨h1, h2, h3⟩
        obtain ⟨v, hv1, hv2⟩ := hv k hk
        have hb : b[off + 2 * k]? = some v := by rw [h3 _ (by intro k' hk'; omega)]; exact hv1
        obtain ⟨b', e, rfl⟩ := hf k b v hk h1 hb hv1 hv2
        refine ⟨_, e, by simpa using h1, ?_, ?_⟩
        · intro k' v' hk' hv'
          rw [getElem?_set_if (by rw [h1]; exact hl k hk)]
          by_cases he : k' = k
          · subst he
            rw [if_pos rfl]
            rw [hv1] at hv'
            rw [Option.some.inj hv']
          · rw [if_neg (by omega)]
            exact h2 k' v' (by omega) hv'
        · intro t ht
          rw [getElem?_set_if (by rw [h1]; exact hl k hk), if_neg (ht k (by omega))]
          exact h3 t (fun k' hk' => ht k' (by omega)))
    exact ⟨r, e, h1, h2, h3⟩
  unfold computeCellIndex
  by_cases ho : (i < 0 ∨ i ≥ nx) ∨ (j < 0 ∨ j ≥ ny)
  · rw [if_pos ho]
    refine body _ ?_
    intro k b v hk hb _ _ _
    rw [wr_ok (by rw [hb]; exact hl k hk)]
    exact ⟨_, rfl, by unfold cellAt; rw [if_pos (Or.inl ho)]⟩
  · rw [if_neg ho]
    refine body _ ?_
    intro k b v hk hb hbv _ hv2
    rw [rd_of_getElem? hbv, bind_ok]
    by_cases hm : v = -1
    · rw [if_neg (by rw [not_not]; exact hm)]
      refine ⟨b, rfl, ?_⟩
      unfold cellAt
      rw [if_pos (Or.inr hm)]
      rw [hm] at hbv
      exact (set_self hbv).symm
    · rw [if_pos hm, linearindex_ok (by omega) (by omega) (hv2.resolve_left hm), bind_ok, wr_ok (by rw [hb]; exact hl k hk)]
      exact ⟨_, rfl, by unfold cellAt; rw [if_neg (by rw [not_or]; exact ⟨ho, hm⟩)]⟩

theorem setTags_ok {dir start nf : Nat} {tag : List Nat} (h1 : start ≤ nf) (h2 : nf ≤ tag.length) :
    ∃ t, setTags dir start nf tag = .ok t ∧ t.length = tag.length ∧ t.take nf = tag.take start ++ List.replicate (nf - start) dir := by
  unfold setTags
  obtain ⟨t, e, g1, g2⟩ := forRange_inv (f := fun f (t : List Nat) => wr t f dir) (s := tag) h1 (fun k (t : List Nat) => t.length = tag.length ∧
    t.take k = tag.take start ++ List.replicate (k - start) dir) ⟨rfl, by simp⟩ (by
      rintro k t hk1 hk2 ⟨g1, g2⟩
      refine ⟨_, wr_ok (by omega), by simpa using g1, ?_⟩
      rw [take_set_succ (by omega), g2, show k + 1 - start = (k - start) + 1 by omega, List.replicate_succ', List.append_assoc])
  exact ⟨t, e, g1, g2⟩

theorem faceNbrs_get {fs : List Face} {k : Nat} {f : Face} (h : fs[k]? = some f) : (faceNbrs fs)[2 * k]? = some f.a ∧ (faceNbrs fs)[2 * k + 1]? = some f.b := by
  unfold faceNbrs
  have h0 := getElem?_flatMap_const (f := fun f : Face => [f.a, f.b]) (d := 2) (fun _ _ => rfl) h (t := 0) (by omega)
  have h1 := getElem?_flatMap_const (f := fun f : Face => [f.a, f.b]) (d := 2) (fun _ _ => rfl) h (t := 1) (by omega)
  exact ⟨by simpa using h0, by simpa using h1⟩

theorem eq_faceNbrs {l : List Int} {fs : List Face} (hl : l.length = 2 * fs.length) (h : ∀ k f, fs[k]? = some f → l[2 * k]? = some f.a ∧ l[2 * k + 1]? = some f.b) :
    l = faceNbrs fs := by
  apply List.ext_getElem?
  intro t
  rcases Nat.lt_or_ge t (2 * fs.length) with ht | ht
  · obtain ⟨f, hf⟩ : ∃ f, fs[t / 2]? = some f := ⟨_, List.getElem?_eq_getElem (by omega)⟩
    have h1 := h _ f hf
    have h2 := faceNbrs_get hf
    rcases Nat.mod_two_eq_zero_or_one t with e | e
    · rw [show t = 2 * (t / 2) by omega, h1.1, h2.1]
    · rw [show t = 2 * (t / 2) + 1 by omega, h1.2, h2.2]
  · rw [List.getElem?_eq_none (by omega), List.getElem?_eq_none (by rw [length_faceNbrs]; omega)]

/-- Both neighbours of the new faces are made global. -/
theorem neighbours_ok {nx ny nz : Nat} {i j i' j' : Int} {fs gs : List Face} {nbr : List Int} (hr : nbr.take (2 * (fs ++ gs).length) = faceNbrs (fs ++ gs))
    (hl : 2 * (fs ++ gs).length ≤ nbr.length) (hv : ∀ f ∈ gs, (f.a = -1 ∨ (0 ≤ f.a ∧ f.a < nz)) ∧ (f.b = -1 ∨ (0 ≤ f.b ∧ f.b < nz))) :
    ∃ r r', computeCellIndex nx ny nz i j nbr (2 * fs.length) gs.length = .ok r ∧ computeCellIndex nx ny nz i' j' r (2 * fs.length + 1) gs.length = .ok r' ∧
      r'.length = nbr.length ∧ r'.take (2 * (fs ++ gs).length) = faceNbrs (fs ++ gs.map (fun f => ⟨cellAt nx ny i j f.a, cellAt nx ny i' j' f.b, f.nodes⟩)) := by
  rw [List.length_append] at hl hr
  have get : ∀ k f, (fs ++ gs)[k]? = some f → nbr[2 * k]? = some f.a ∧ nbr[2 * k + 1]? = some f.b := by
    intro k f hf
    have hk : k < (fs ++ gs).length := by by_contra hc; rw [List.getElem?_eq_none (by omega)] at hf; cases hf
    rw [List.length_append] at hk
    have := faceNbrs_get hf
    rw [← hr, List.getElem?_take_of_lt (by omega), List.getElem?_take_of_lt (by omega)] at this
    exact this
  have getG : ∀ k f, gs[k]? = some f → nbr[2 * fs.length + 2 * k]? = some f.a ∧ nbr[2 * fs.length + 1 + 2 * k]? = some f.b := by
    intro k f hf
    have := get (fs.length + k) f (by rw [List.getElem?_append_right (by omega), Nat.add_sub_cancel_left]; exact hf)
    rw [show 2 * fs.length + 2 * k = 2 * (fs.length + k) by omega, show 2 * fs.length + 1 + 2 * k = 2 * (fs.length + k) + 1 by omega]
    exact this
  have at' : ∀ k, k < gs.length → ∃ f ∈ gs, gs[k]? = some f := by
    intro k hk
    exact ⟨_, List.getElem_mem hk, List.getElem?_eq_getElem hk⟩
  obtain ⟨r, e1, l1, s1, o1⟩ := computeCellIndex_ok (nx := nx) (ny := ny) (nz := nz) (i := i) (j := j) (nbr := nbr) (off := 2 * fs.length) (cnt := gs.length)
    (fun k hk => by omega) (by
      intro k hk
      obtain ⟨f, hm, hf⟩ := at' k hk
      exact ⟨_, (getG k f hf).1, (hv f hm).1⟩)
  obtain ⟨r', e2, l2, s2, o2⟩ := computeCellIndex_ok (nx := nx) (ny := ny) (nz := nz) (i := i') (j := j') (nbr := r) (off := 2 * fs.length + 1) (cnt := gs.length)
    (fun k hk => by omega) (by
      intro k hk
      obtain ⟨f, hm, hf⟩ := at' k hk
      refine ⟨f.b, ?_, (hv f hm).2⟩
      rw [o1 _ (by intro k' _; omega)]
      exact (getG k f hf).2)
  refine ⟨r, r', e1, e2, by omega, ?_⟩
  rw [List.length_append]
  apply eq_faceNbrs
  · rw [List.length_take, List.length_append, List.length_map]; omega
  · intro k f hf
    have hk : k < fs.length + gs.length := by by_contra hc; rw [List.getElem?_eq_none (by simp; omega)] at hf; cases hf
    rw [List.getElem?_take_of_lt (by omega), List.getElem?_take_of_lt (by omega)]
    rcases Nat.lt_or_ge k fs.length with hlt | hge
    · rw [List.getElem?_append_left hlt] at hf
      rw [o2 _ (by intro k' _; omega), o2 _ (by intro k' _; omega), o1 _ (by intro k' _; omega), o1 _ (by intro k' _; omega)]
      exact get k f (by rw [List.getElem?_append_left hlt]; exact hf)
    · rw [List.getElem?_append_right hge, List.getElem?_map] at hf
      obtain ⟨f', hm, hf'⟩ := at' (k - fs.length) (by omega)
      rw [hf'] at hf
      have hfe := Option.some.inj hf
      have hg := getG _ _ hf'
      subst hfe
      simp only
      rw [show 2 * k = 2 * fs.length + 2 * (k - fs.length) by omega, o2 _ (by intro k' _; omega), s1 _ _ (by omega) hg.1,
        show 2 * fs.length + 2 * (k - fs.length) + 1 = 2 * fs.length + 1 + 2 * (k - fs.length) by omega,
        s2 _ f'.b (by omega) (by rw [o1 _ (by intro k' _; omega)]; exact hg.2)]
      exact ⟨rfl, rfl⟩

theorem length_pairNodes {A B : Stack} {n base i j : Nat} (hA : A.Ok n) (hB : B.Ok n) (hi : i < n - 1) (hj : j < n - 1) (h : Makes A B i j) :
    (pairNodes A B n base i j).length ≤ 6 := by
  rw [(pairNodes_outline (base := base) hA hB hi hj h).perm.length_eq]
  exact length_outline _ i j (ordered hA hB hi hj)

theorem length_connNodes {A B : Stack} {n base : Nat} (hA : A.Ok n) (hB : B.Ok n) : (faceNodes (connFaces A B n base)).length ≤ (connFaces A B n base).length * 6 := by
  unfold faceNodes
  apply length_flatMap_le
  intro f hf
  obtain ⟨i, j, hi, hj, hm, rfl⟩ := mem_connFaces.1 hf
  exact length_pairNodes hA hB hi hj hm

/-- One pair of pillars.  There is room for the crossings if there have not been more of them than faces, or else if no buffer was left. -/
theorem verticalPair_ok (J : Junk) {plist : List Int} {dir nx ny nz i j : Nat} (hnz : 1 ≤ nz) {A B : Stack} (hA : A.Ok (2 * nz + 2)) (hB : B.Ok (2 * nz + 2))
    (h0 : ColAt plist ((cornerpts dir nx ny nz i j).getD 0 0).toNat (2 * nz + 2) A.p) (h1 : ColAt plist ((cornerpts dir nx ny nz i j).getD 1 0).toNat (2 * nz + 2) A.q)
    (h2 : ColAt plist ((cornerpts dir nx ny nz i j).getD 2 0).toNat (2 * nz + 2) B.p) (h3 : ColAt plist ((cornerpts dir nx ny nz i j).getD 3 0).toNat (2 * nz + 2) B.q)
    (h : GInv g fs ts qs) (hq : (qs.length ≤ fs.length ∧ Tame A B (2 * nz + 2)) ∨
      ∃ t, verticalPair J plist dir nx ny nz i j (g, List.replicate (2 * nz + 2) (-1), List.replicate (2 * nz + 2) (-1)) = .ok t) :
    ∃ gs xs g', Connections A B (2 * nz + 2) (g.np + qs.length) gs xs ∧
      verticalPair J plist dir nx ny nz i j (g, List.replicate (2 * nz + 2) (-1), List.replicate (2 * nz + 2) (-1)) =
        .ok (g', List.replicate (2 * nz + 2) (-1), List.replicate (2 * nz + 2) (-1)) ∧ g'.np = g.np ∧
      GInv g' (fs ++ gs.map (fun f => ⟨cellAt nx ny ((i : Int) - 1 + dir) ((j : Int) - dir) f.a, cellAt nx ny i j f.b, f.nodes⟩)) (ts ++ List.replicate gs.length dir)
        (qs ++ xs) ∧ (qs.length ≤ fs.length ∧ Tame A B (2 * nz + 2) → (qs ++ xs).length ≤ fs.length + gs.length) := by
  obtain ⟨g1, e1, i1, np1, nf1, nn1, m1, n1⟩ := checkmemory_ok J nz h
  have spec := conn_spec hA hB (g.np + qs.length)
  have lf := length_connFaces (A := A) (B := B) (n := 2 * nz + 2) (g.np + qs.length)
  have lx := length_crossings (A := A) (B := B) (n := 2 * nz + 2)
  have ln := length_connNodes (base := g.np + qs.length) hA hB
  have l4 : (crossings A B (2 * nz + 2)).flatten.length = 4 * (crossings A B (2 * nz + 2)).length := length_flatten4 (fun q hq => quad_length hq)
  have l4' := length_flatten4 i1.four
  have hrr : (2 * nz + 2 - 1) * (2 * nz + 2 - 1) ≤ (2 * nz + 2) * (2 * nz + 2) := Nat.mul_le_mul (by omega) (by omega)
  have room : Room g1.n g1.nbr.length g1.its.length (g1.m + 1) (fs ++ connFaces A B (2 * nz + 2) (g.np + qs.length)) (qs ++ crossings A B (2 * nz + 2)) := by
    refine ⟨?_, ?_, ?_, ?_⟩
    · rw [faceNodes_append, List.length_append]; omega
    · rw [List.length_append]; have := i1.clen; omega
    · rcases hq with ⟨hqf, ht⟩ | ⟨t, e⟩
      swap
      · unfold verticalPair at e
        rw [e1, bind_ok] at e
        simp only at e
        rw [rd_of_getElem? i1.ptrAt, bind_ok, i1.nf, show g1.nn - g1.np = qs.length by rw [i1.nn]; omega, show g1.nn = g.np + qs.length by rw [i1.nn, np1]] at e
        obtain ⟨s, e2, _⟩ := bind_eq_ok.1 e
        exact findConnections_room (np := g.np) (capF := g1.n) (capC := g1.nbr.length) (capX := g1.its.length) (capP := g1.m + 1) (fs0 := fs) (qs0 := qs)
          hA hB h0 h1 h2 h3 (by rw [faceNodes_append, List.length_append]; omega) (by rw [List.length_append]; have := i1.clen; omega) (by rw [List.length_append]; omega)
          (f := ⟨g1.nodes, (faceNodes fs).length⟩) (c := ⟨g1.nbr, 2 * fs.length⟩) (x := ⟨g1.its, 4 * qs.length⟩) (ptr := g1.ptr)
          ⟨rfl, i1.nlen, i1.nodes⟩ ⟨(length_faceNbrs fs).symm, rfl, by rw [length_faceNbrs]; exact i1.nbr⟩ ⟨l4'.symm, rfl, by rw [l4']; exact i1.its⟩ i1.plen i1.ptr e2
      have tame := ht _ _ _ spec
      rw [List.flatten_append, List.length_append, l4, l4']
      rcases i1.xlen with hx | ⟨hm, hx⟩
      · omega
      · have hz : nz = 1 := by
          by_contra hc
          have := Nat.mul_le_mul (show 6 ≤ 2 * nz + 2 by omega) (show 6 ≤ 2 * nz + 2 by omega)
          omega
        subst hz
        omega
    · rw [List.length_append]; omega
  have hnp : g.np + qs.length = g1.np + qs.length := by rw [np1]
  obtain ⟨s, e2, hs, ht1, ht2⟩ := findConnections_ok (np := g.np) (capF := g1.n) (capC := g1.nbr.length) (capX := g1.its.length) (capP := g1.m + 1) (fs0 := fs) (qs0 := qs)
    hA hB h0 h1 h2 h3 room (f := ⟨g1.nodes, (faceNodes fs).length⟩) (c := ⟨g1.nbr, 2 * fs.length⟩) (x := ⟨g1.its, 4 * qs.length⟩) (ptr := g1.ptr)
    ⟨rfl, i1.nlen, i1.nodes⟩ ⟨(length_faceNbrs fs).symm, rfl, by rw [length_faceNbrs]; exact i1.nbr⟩ ⟨l4'.symm, rfl, by rw [l4']; exact i1.its⟩ i1.plen i1.ptr rfl rfl
  set gs := connFaces A B (2 * nz + 2) (g.np + qs.length) with hgs
  set xs := crossings A B (2 * nz + 2) with hxs
  obtain ⟨r, r', e3, e4, lr, hr'⟩ := neighbours_ok (nx := nx) (ny := ny) (nz := nz) (i := (i : Int) - 1 + dir) (j := (j : Int) - dir) (i' := i) (j' := j) (fs := fs) (gs := gs)
    (nbr := s.c.buf) (by have := hs.c.2.2; rwa [length_faceNbrs] at this) (by rw [hs.c.2.1]; exact room.c) (by
      intro f hf
      obtain ⟨k, l, hk, hl, _, rfl⟩ := mem_connFaces.1 hf
      simp only
      unfold cellOf
      constructor
      · split
        · right; omega
        · left; rfl
      · split
        · right; omega
        · left; rfl)
  obtain ⟨t, e5, lt, ht'⟩ := setTags_ok (dir := dir) (start := fs.length) (nf := fs.length + gs.length) (tag := g1.tag) (by omega) (by rw [i1.tlen]; have := room.p; rw [List.length_append] at this; omega)
  refine ⟨gs, xs, { g1 with nbr := r', nodes := s.f.buf, ptr := s.ptr, tag := t, nf := s.nf, nn := s.nn, its := s.x.buf }, spec, ?_, np1, ?_, ?_⟩
  · have nnp : g1.nn - g1.np = qs.length := by rw [i1.nn]; omega
    have nn2 : g1.nn = g.np + qs.length := by rw [i1.nn, np1]
    have snf : s.nf = fs.length + gs.length := by rw [hs.nf, List.length_append]
    unfold verticalPair
    rw [e1, bind_ok]
    simp only
    rw [rd_of_getElem? i1.ptrAt, bind_ok, i1.nf, nnp, nn2, e2, bind_ok]
    rw [snf, Nat.add_sub_cancel_left, e3, bind_ok, e4, bind_ok, e5, bind_ok, ht1, ht2]
    simp only [ite_self]
  · refine ⟨?_, hs.f.2.1, ?_, ?_, ?_, hs.plen, ?_, ?_, ?_, ?_, ?_, ?_, ?_, ?_⟩
    · simp only; rw [hs.nf]; simp
    · have : faceNodes (fs ++ gs.map (fun f => ⟨cellAt nx ny ((i : Int) - 1 + dir) ((j : Int) - dir) f.a, cellAt nx ny i j f.b, f.nodes⟩)) = faceNodes (fs ++ gs) := by
        unfold faceNodes
        rw [List.flatMap_append, List.flatMap_append, List.flatMap_map]
      rw [this]
      exact hs.f.2.2
    · simp only; rw [lr, hs.c.2.1]; exact i1.clen
    · simp only; rw [← hr']; simp
    · simp only
      have : facePtr (fs ++ gs.map (fun f => ⟨cellAt nx ny ((i : Int) - 1 + dir) ((j : Int) - dir) f.a, cellAt nx ny i j f.b, f.nodes⟩)) = facePtr (fs ++ gs) := by
        unfold facePtr
        rw [List.length_append, List.length_append, List.length_map]
        apply List.map_congr_left
        intro k _
        unfold faceNodes
        rw [List.take_append, List.take_append, List.flatMap_append, List.flatMap_append, ← List.map_take, List.flatMap_map]
      rw [this, ← hs.ptr]
      simp
    · simp only; rw [lt]; exact i1.tlen
    · simp only; rw [List.length_append, List.length_map, ht', i1.tag, Nat.add_sub_cancel_left]
    · simp only; rw [hs.x.2.1]; exact i1.xlen
    · simp only
      have := hs.x.2.2
      rw [length_flatten4 (l := qs ++ xs) (by
        intro q hq
        rcases List.mem_append.1 hq with hq | hq
        · exact i1.four q hq
        · exact quad_length hq)] at this
      exact this
    · intro q hq
      rcases List.mem_append.1 hq with hq | hq
      · exact i1.four q hq
      · exact quad_length hq
    · simp only; rw [hs.nn, np1, List.length_append]
    · simp only; have := room.p; rw [List.length_append] at this ⊢; rw [List.length_map]; omega
  · rintro ⟨hqf, ht⟩
    have tame := ht _ _ _ spec
    rw [List.length_append]; omega

end

end Opm.Cpg
