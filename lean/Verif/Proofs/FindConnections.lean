import Verif.Proofs.FaceTopology
/-!
# `findconnections` produces `connFaces` and `crossings`
-/

namespace Opm.Cpg
open Opm UniquePoints

/-- The buffers have room for the faces `fs` and the crossings `qs`. -/
structure Room (capF capC capX capP : Nat) (fs : List Face) (qs : List (List Int)) : Prop where
  f : (faceNodes fs).length ≤ capF
  c : 2 * fs.length ≤ capC
  x : qs.flatten.length ≤ capX
  p : fs.length < capP

theorem Room.left {capF capC capX capP : Nat} {fs gs : List Face} {qs rs : List (List Int)} (h : Room capF capC capX capP (fs ++ gs) (qs ++ rs)) :
    Room capF capC capX capP fs qs := by
  obtain ⟨h1, h2, h3, h4⟩ := h
  rw [faceNodes_append, List.length_append] at h1
  rw [List.length_append] at h2 h4
  rw [List.flatten_append, List.length_append] at h3
  exact ⟨by omega, by omega, by omega, by omega⟩

section
variable {A B : Stack} {n np capF capC capX capP : Nat} {fs0 : List Face} {qs0 : List (List Int)}

theorem maybeFace_ok {s : Conn} {fs : List Face} {qs : List (List Int)} {i base : Nat} (h : Holds np capF capC capX capP s fs qs)
    (hr : Room capF capC capX capP (fs ++ faceAt A B n base i s.j) qs) (h1 : ¬ A.Empty i) (h2 : ¬ B.Empty s.j) (h3 : faceX (A.layer i) (B.layer s.j) = true)
    {nodes : List Int} (hn : nodes = pairNodes A B n base i s.j) :
    ∃ s', s.maybeFace i (A.layer i) (B.layer s.j) nodes = .ok s' ∧ Holds np capF capC capX capP s' (fs ++ faceAt A B n base i s.j) qs ∧ s'.top = s.top ∧
      s'.bot = s.bot ∧ s'.sw = s.sw ∧ s'.k1 = s.k1 ∧ s'.k2 = s.k2 ∧ s'.j = s.j := by
  subst hn
  unfold Conn.maybeFace
  by_cases hm : meaningful (A.layer i) (B.layer s.j) = true
  · rw [if_pos hm]
    by_cases hc : cellOf i ≠ -1 ∨ cellOf s.j ≠ -1
    · rw [if_pos hc]
      have hM : Makes A B i s.j := ⟨h1, h2, h3, hm, hc⟩
      have e : faceAt A B n base i s.j = [⟨cellOf i, cellOf s.j, pairNodes A B n base i s.j⟩] := by unfold faceAt; rw [if_pos hM]
      rw [e] at hr ⊢
      have hc := hr.c
      have hp := hr.p
      rw [List.length_append, List.length_singleton] at hc hp
      exact addFace_ok h ⟨cellOf i, cellOf s.j, pairNodes A B n base i s.j⟩ hr.f hc hp
    · rw [if_neg hc]
      have e : faceAt A B n base i s.j = [] := by unfold faceAt; rw [if_neg (fun h => hc h.2.2.2.2)]
      rw [e, List.append_nil]
      exact ⟨s, rfl, h, rfl, rfl, rfl, rfl, rfl, rfl⟩
  · rw [if_neg hm]
    have e : faceAt A B n base i s.j = [] := by unfold faceAt; rw [if_neg (fun h => hm h.2.2.2.1)]
    rw [e, List.append_nil]
    exact ⟨s, rfl, h, rfl, rfl, rfl, rfl, rfl, rfl⟩

theorem getElem?_set_if {α : Type _} {l : List α} {k j : Nat} {x : α} (hk : k < l.length) : (l.set k x)[j]? = if j = k then some x else l[j]? := by
  by_cases h : j = k
  · subst h; rw [if_pos rfl, List.getElem?_set_self hk]
  · rw [if_neg h, List.getElem?_set_ne (fun e => h e.symm)]

theorem newX_ok {s : Conn} {fs : List Face} {i : Nat} (hA : A.Ok n) (hB : B.Ok n) (hi : i < n - 1) (hj : s.j < n - 1)
    (h : Holds np capF capC capX capP s fs (qs0 ++ (crossUpTo A B n i ++ rowCross A B i s.j)))
    (hr : Room capF capC capX capP fs (qs0 ++ (crossUpTo A B n i ++ rowCross A B i s.j) ++ crossAt A B i s.j)) (h1 : ¬ A.Empty i) (h2 : ¬ B.Empty s.j)
    (htl : s.top.length = n) :
    ∃ s', s.newX (A.layer i) (B.layer s.j) = .ok s' ∧ Holds np capF capC capX capP s' fs (qs0 ++ (crossUpTo A B n i ++ rowCross A B i s.j) ++ crossAt A B i s.j) ∧
      s'.top = s.top.set (s.j + 1) (xnum A B n (np + qs0.length) (i + 1) (s.j + 1)) ∧ s'.bot = s.bot ∧ s'.sw = s.sw ∧ s'.k1 = s.k1 ∧ s'.k2 = s.k2 ∧ s'.j = s.j := by
  unfold Conn.newX
  by_cases hc : Cross A B (i + 1) (s.j + 1)
  · have e : crossAt A B i s.j = [quad A B (i + 1) (s.j + 1)] := by unfold crossAt; rw [if_pos ⟨h1, h2, hc⟩]
    rw [e] at hr ⊢
    have hx := hr.x
    rw [List.flatten_append, List.length_append] at hx
    obtain ⟨x', e1, r1⟩ := Cur.puts_rep (quad A B (i + 1) (s.j + 1)) h.x (by simpa using hx)
    have hl := lineX_iff.2 hc
    rw [if_pos (by simpa [Stack.layer] using hl), wr_ok (by omega), bind_ok]
    unfold quad at e1
    simp only [Stack.layer]
    rw [e1, bind_ok]
    refine ⟨_, rfl, ⟨h.nf, h.f, h.c, ?_, h.plen, h.ptr, ?_⟩, ?_, rfl, rfl, rfl, rfl, rfl⟩
    · rw [List.flatten_append]; simpa using r1
    · simp only [h.nn, List.length_append, List.length_singleton]; omega
    · simp only
      rw [xnum_new hA hB hi hj h1 h2 hc, h.nn, List.length_append]
      congr 2
      omega
  · have e : crossAt A B i s.j = [] := by unfold crossAt; rw [if_neg (fun h => hc h.2.2)]
    rw [e, List.append_nil]
    rw [if_neg (fun hl => hc (lineX_iff.1 (by simpa [Stack.layer] using hl))), wr_ok (by omega), bind_ok]
    refine ⟨_, rfl, ⟨h.nf, h.f, h.c, h.x, h.plen, h.ptr, h.nn⟩, ?_, rfl, rfl, rfl, rfl, rfl⟩
    simp only
    rw [xnum_no hc]

/-- The loop over `j` in row `i`. -/
structure RowInv (A B : Stack) (n np capF capC capX capP : Nat) (fs0 : List Face) (qs0 : List (List Int)) (i : Nat) (s : Conn) : Prop where
  le : s.j ≤ n - 1
  holds : Holds np capF capC capX capP s (fs0 ++ (facesUpTo A B n (np + qs0.length) i ++ rowFaces A B n (np + qs0.length) i s.j))
    (qs0 ++ (crossUpTo A B n i ++ rowCross A B i s.j))
  tlen : s.top.length = n
  blen : s.bot.length = n
  bot : ∀ j, j < n → s.bot[j]? = some (xnum A B n (np + qs0.length) i j)
  done : ∀ j, j ≤ s.j → s.top[j]? = some (xnum A B n (np + qs0.length) (i + 1) j)
  todo : ∀ j, s.j < j → j < n → s.top[j]? = some (-1)
  k1 : s.k1 = 0 ∨ (s.k1 < n ∧ B.p s.k1 < A.p (i + 1))
  k2 : s.k2 = 0 ∨ (s.k2 < n ∧ B.q s.k2 < A.q (i + 1))

theorem pair_ok {s : Conn} {i : Nat} (hA : A.Ok n) (hB : B.Ok n) (hi : i < n - 1) (hj : s.j < n - 1) (h1 : ¬ A.Empty i) (h2 : ¬ B.Empty s.j)
    (hr : Room capF capC capX capP (fs0 ++ connFaces A B n (np + qs0.length)) (qs0 ++ crossings A B n))
    (h : RowInv A B n np capF capC capX capP fs0 qs0 i s) :
    ∃ s', s.pair i (A.layer i) (B.layer s.j) = .ok s' ∧
      Holds np capF capC capX capP s' (fs0 ++ (facesUpTo A B n (np + qs0.length) i ++ rowFaces A B n (np + qs0.length) i s.j) ++ faceAt A B n (np + qs0.length) i s.j)
        (qs0 ++ (crossUpTo A B n i ++ rowCross A B i s.j) ++ crossAt A B i s.j) ∧ s'.top.length = n ∧
      (∀ j, s'.top[j]? = if j = s.j + 1 then some (xnum A B n (np + qs0.length) (i + 1) (s.j + 1)) else s.top[j]?) ∧ s'.bot = s.bot ∧ s'.sw = s.sw ∧
      s'.k1 = s.k1 ∧ s'.k2 = s.k2 ∧ s'.j = s.j := by
  have hroom : Room capF capC capX capP
      (fs0 ++ (facesUpTo A B n (np + qs0.length) i ++ rowFaces A B n (np + qs0.length) i s.j) ++ faceAt A B n (np + qs0.length) i s.j)
      (qs0 ++ (crossUpTo A B n i ++ rowCross A B i s.j) ++ crossAt A B i s.j) := by
    obtain ⟨r1, e1⟩ := crossings_split (A := A) (B := B) hi hj
    obtain ⟨r2, e2⟩ := connFaces_split (A := A) (B := B) (base := np + qs0.length) hi hj
    rw [e1, e2] at hr
    refine Room.left (gs := r2) (rs := r1) ?_
    simpa only [List.append_assoc] using hr
  have hkeep : ¬ Cross A B (i + 1) (s.j + 1) → ∀ j, s.top[j]? = if j = s.j + 1 then some (xnum A B n (np + qs0.length) (i + 1) (s.j + 1)) else s.top[j]? := by
    intro hc j
    rw [xnum_no hc]
    split
    · rename_i e; rw [e]; exact h.todo _ (by omega) (by omega)
    · rfl
  have hnoX : ¬ Cross A B (i + 1) (s.j + 1) → crossAt A B i s.j = [] := by
    intro hc; unfold crossAt; rw [if_neg (fun h => hc h.2.2)]
  unfold Conn.pair
  by_cases hF : faceX (A.layer i) (B.layer s.j) = true
  · rw [if_pos hF]
    by_cases hM : matching (A.layer i) (B.layer s.j) = true
    · rw [if_pos hM]
      have hc := not_cross_of_matching hM
      rw [hnoX hc, List.append_nil] at hroom ⊢
      obtain ⟨s', e, g1, g2, g3⟩ := maybeFace_ok h.holds hroom h1 h2 hF (nodes := matchNodes (A.layer i)) (by unfold pairNodes; rw [if_pos hM])
      exact ⟨s', e, g1, by rw [g2]; exact h.tlen, by rw [g2]; exact hkeep hc, g3⟩
    · rw [if_neg hM]
      unfold Conn.nonMatching
      obtain ⟨s1, e1, g1, g2, g3, g4, g5, g6, g7⟩ := newX_ok hA hB hi hj h.holds
        (fs := fs0 ++ (facesUpTo A B n (np + qs0.length) i ++ rowFaces A B n (np + qs0.length) i s.j))
        (by
          refine Room.left (gs := faceAt A B n (np + qs0.length) i s.j) (rs := []) ?_
          rw [List.append_nil]; exact hroom) h1 h2 h.tlen
      rw [e1, bind_ok]
      simp only [g3, g7]
      have hset : ∀ j, s1.top[j]? = if j = s.j + 1 then some (xnum A B n (np + qs0.length) (i + 1) (s.j + 1)) else s.top[j]? := by
        intro j; rw [g2]; exact getElem?_set_if (by rw [h.tlen]; omega)
      rw [rd_of_getElem? (h.bot _ (by omega)), bind_ok, rd_of_getElem? (h.bot _ (by omega)), bind_ok,
        rd_of_getElem? (by rw [hset, if_neg (by omega)]; exact h.done _ (le_refl _)), bind_ok, rd_of_getElem? (by rw [hset, if_pos rfl]), bind_ok]
      rw [← g7] at hroom h2 hF ⊢
      obtain ⟨s', e, r1, r2, r3, r4, r5, r6, r7⟩ := maybeFace_ok (s := s1) (by rw [g7]; exact g1) hroom h1 h2 hF (nodes := faceTopology (A.layer i) (B.layer s1.j)
        (xnum A B n (np + qs0.length) i s1.j) (xnum A B n (np + qs0.length) i (s1.j + 1)) (xnum A B n (np + qs0.length) (i + 1) s1.j)
        (xnum A B n (np + qs0.length) (i + 1) (s1.j + 1))) (by unfold pairNodes; rw [g7, if_neg hM])
      refine ⟨s', e, r1, by rw [r2, g2, List.length_set]; exact h.tlen, by rw [r2, g7]; exact hset, by rw [r3, g3], by rw [r4, g4], by rw [r5, g5], by rw [r6, g6], r7⟩
  · rw [if_neg hF]
    have hc : ¬ Cross A B (i + 1) (s.j + 1) := fun hc => hF (faceX_of_cross hc)
    have hf : faceAt A B n (np + qs0.length) i s.j = [] := by unfold faceAt; rw [if_neg (fun h => hF h.2.2.1)]
    rw [hnoX hc, hf, List.append_nil, List.append_nil]
    exact ⟨s, rfl, h.holds, h.tlen, hkeep hc, rfl, rfl, rfl, rfl, rfl⟩

theorem step_ok {s : Conn} {i : Nat} (hA : A.Ok n) (hB : B.Ok n) (hi : i < n - 1) (hj : s.j < n - 1) (h1 : ¬ A.Empty i)
    (hr : Room capF capC capX capP (fs0 ++ connFaces A B n (np + qs0.length)) (qs0 ++ crossings A B n))
    (h : RowInv A B n np capF capC capX capP fs0 qs0 i s) :
    ∃ s', Conn.step i (A.layer i) (B.layer s.j) s = .ok s' ∧ RowInv A B n np capF capC capX capP fs0 qs0 i s' ∧ s'.j = s.j + 1 ∧ s'.sw = s.sw := by
  unfold Conn.step
  by_cases h2 : B.Empty s.j
  · rw [if_pos (pinched_iff.2 h2), rd_of_getElem? (h.done _ (le_refl _)), bind_ok, wr_ok (by rw [h.tlen]; omega), bind_ok]
    have hf : faceAt A B n (np + qs0.length) i s.j = [] := by unfold faceAt; rw [if_neg (fun h => h.2.1 h2)]
    have hx : crossAt A B i s.j = [] := by unfold crossAt; rw [if_neg (fun h => h.2.1 h2)]
    have hset : ∀ j, (s.top.set (s.j + 1) (xnum A B n (np + qs0.length) (i + 1) s.j))[j]? =
        if j = s.j + 1 then some (xnum A B n (np + qs0.length) (i + 1) s.j) else s.top[j]? := fun j => getElem?_set_if (by rw [h.tlen]; omega)
    refine ⟨_, rfl, ⟨by simp only; omega, ?_, by simpa using h.tlen, h.blen, h.bot, ?_, ?_, h.k1, h.k2⟩, rfl, rfl⟩
    · simp only
      rw [rowFaces_succ, rowCross_succ, hf, hx, List.append_nil, List.append_nil]
      exact ⟨h.holds.nf, h.holds.f, h.holds.c, h.holds.x, h.holds.plen, h.holds.ptr, h.holds.nn⟩
    · intro j hj'
      simp only at hj' ⊢
      rw [hset]
      split
      · rename_i e; rw [e, xnum_emptyB h2]
      · exact h.done j (by omega)
    · intro j hj' hn
      simp only at hj' ⊢
      rw [hset, if_neg (by omega)]
      exact h.todo j (by omega) hn
  · rw [if_neg (fun e => h2 (pinched_iff.1 e))]
    obtain ⟨s1, e, g1, g2, g3, g4, g5, g6, g7, g8⟩ := pair_ok hA hB hi hj h1 h2 hr h
    rw [e, bind_ok]
    refine ⟨_, rfl, ⟨by simp only; omega, ?_, g2, by rw [g4]; exact h.blen, by rw [g4]; exact h.bot, ?_, ?_, ?_, ?_⟩, by simp only [g8], g5⟩
    · simp only [g8]
      rw [rowFaces_succ, rowCross_succ]
      simp only [List.append_assoc] at g1 ⊢
      exact ⟨g1.nf, g1.f, g1.c, g1.x, g1.plen, g1.ptr, g1.nn⟩
    · intro j hj'
      simp only [g8] at hj' ⊢
      rw [g3]
      split
      · rename_i e; rw [e]
      · exact h.done j (by omega)
    · intro j hj' hn
      simp only [g8] at hj' ⊢
      rw [g3, if_neg (by omega)]
      exact h.todo j (by omega) hn
    · simp only [Stack.layer, g8, g6]
      split
      · right; exact ⟨by omega, by assumption⟩
      · exact h.k1
    · simp only [Stack.layer, g8, g7]
      split
      · right; exact ⟨by omega, by assumption⟩
      · exact h.k2

/-- Column `f` of `n` entries begins at position `p`. -/
def ColAt (plist : List Int) (p n : Nat) (f : Nat → Int) : Prop := ∀ i, i < n → plist[p + i]? = some (f i)

theorem readLayer_ok {plist : List Int} {p q i : Nat} (hp : ColAt plist p n A.p) (hq : ColAt plist q n A.q) (hi : i < n - 1) :
    readLayer plist p q i = .ok (A.layer i) := by
  unfold readLayer
  rw [rd_of_getElem? (hp i (by omega)), bind_ok, rd_of_getElem? (hp (i + 1) (by omega)), bind_ok, rd_of_getElem? (hq i (by omega)), bind_ok,
    rd_of_getElem? (hq (i + 1) (by omega)), bind_ok]
  rfl

theorem cross_last (hA : A.Ok n) (hB : B.Ok n) {i : Nat} (hi : i < n) : ¬ Cross A B i 0 := by
  have h1 := mono_le hA.monoP (Nat.zero_le i) hi
  have h2 := mono_le hA.monoQ (Nat.zero_le i) hi
  have h3 := hA.first
  have h4 := hB.first
  unfold Cross
  omega

theorem row_ok {plist : List Int} {pb qb : Nat} {s : Conn} {i : Nat} (hA : A.Ok n) (hB : B.Ok n) (hpb : ColAt plist pb n B.p) (hqb : ColAt plist qb n B.q)
    (hi : i < n - 1) (h1 : ¬ A.Empty i)
    (hr : Room capF capC capX capP (fs0 ++ connFaces A B n (np + qs0.length)) (qs0 ++ crossings A B n))
    (h : RowInv A B n np capF capC capX capP fs0 qs0 i s) :
    ∃ s', s.row plist pb qb n i (A.layer i) = .ok s' ∧ RowInv A B n np capF capC capX capP fs0 qs0 i s' ∧ s'.sw = s.sw ∧
      (s'.j = n - 1 ∨ (A.p (i + 1) ≤ B.p s'.j ∧ A.q (i + 1) ≤ B.q s'.j)) := by
  unfold Conn.row
  refine whileFuel_inv (fun (t : Conn) => RowInv A B n np capF capC capX capP fs0 qs0 i t ∧ t.sw = s.sw)
    (fun (s' : Conn) => RowInv A B n np capF capC capX capP fs0 qs0 i s' ∧ s'.sw = s.sw ∧ (s'.j = n - 1 ∨ (A.p (i + 1) ≤ B.p s'.j ∧ A.q (i + 1) ≤ B.q s'.j)))
    (fun (t : Conn) => n - 1 - t.j) ?_ ⟨h, rfl⟩ (by omega)
  rintro t ⟨ht, hsw⟩
  by_cases hj : t.j < n - 1
  · rw [if_pos hj, readLayer_ok hpb hqb hj, bind_ok]
    by_cases hg : (B.layer t.j).p < (A.layer i).p' ∨ (B.layer t.j).q < (A.layer i).q'
    · rw [if_pos hg]
      obtain ⟨s', e, g1, g2, g3⟩ := step_ok hA hB hi hj h1 hr ht
      rw [e, bind_ok]
      exact ⟨s', true, rfl, fun _ => ⟨⟨g1, by rw [g3, hsw]⟩, by omega⟩, fun h => (by cases h)⟩
    · rw [if_neg hg]
      refine ⟨t, false, rfl, fun h => (by cases h), fun _ => ⟨ht, hsw, Or.inr ?_⟩⟩
      simp only [Stack.layer] at hg
      omega
  · rw [if_neg hj]
    have := ht.le
    exact ⟨t, false, rfl, fun h => (by cases h), fun _ => ⟨ht, hsw, Or.inl (by omega)⟩⟩

theorem fill_ok {t : List Int} (ht : t.length = n) :
    ∃ t', loop n (fun j (t : List Int) => wr t j (-1)) t = .ok t' ∧ t'.length = n ∧ ∀ j, j < n → t'[j]? = some (-1) := by
  obtain ⟨t', e, h1, h2⟩ := loop_inv (n := n) (f := fun j (t : List Int) => wr t j (-1)) (s := t)
    (fun k (t' : List Int) => t'.length = n ∧ ∀ j, j < k → t'[j]? = some (-1)) ⟨ht, by intro j hj; omega⟩ (by
      intro k t' hk ⟨h1, h2⟩
      rw [wr_ok (by omega)]
      refine ⟨_, rfl, by simpa using h1, ?_⟩
      intro j hj
      rw [getElem?_set_if (by omega)]
      split
      · rfl
      · exact h2 j (by omega))
  exact ⟨t', e, h1, h2⟩

/-- The loop over `i`. -/
structure LineInv (A B : Stack) (n np capF capC capX capP : Nat) (fs0 : List Face) (qs0 : List (List Int)) (i : Nat) (s : Conn) : Prop where
  holds : Holds np capF capC capX capP s (fs0 ++ facesUpTo A B n (np + qs0.length) i) (qs0 ++ crossUpTo A B n i)
  tlen : s.top.length = n
  blen : s.bot.length = n
  top : ∀ j, j < n → s.top[j]? = some (-1)
  bot : ∀ j, j < n → s.bot[j]? = some (xnum A B n (np + qs0.length) i j)
  k1 : s.k1 = 0 ∨ (s.k1 < n ∧ B.p s.k1 < A.p i)
  k2 : s.k2 = 0 ∨ (s.k2 < n ∧ B.q s.k2 < A.q i)
  j : s.j = 0 ∨ (s.j < n ∧ B.p s.j < A.p i ∧ B.q s.j < A.q i)

theorem line_ok {plist : List Int} {pa qa pb qb : Nat} {s : Conn} {i : Nat} (hA : A.Ok n) (hB : B.Ok n) (hpa : ColAt plist pa n A.p) (hqa : ColAt plist qa n A.q)
    (hpb : ColAt plist pb n B.p) (hqb : ColAt plist qb n B.q) (hi : i < n - 1)
    (hr : Room capF capC capX capP (fs0 ++ connFaces A B n (np + qs0.length)) (qs0 ++ crossings A B n))
    (h : LineInv A B n np capF capC capX capP fs0 qs0 i s) :
    ∃ s', s.line plist pa qa pb qb n i = .ok s' ∧ LineInv A B n np capF capC capX capP fs0 qs0 (i + 1) s' := by
  have hAi := hA.monoP i (by omega)
  have hAq := hA.monoQ i (by omega)
  unfold Conn.line
  rw [readLayer_ok hpa hqa hi, bind_ok]
  by_cases h1 : A.Empty i
  · rw [if_pos (pinched_iff.2 h1)]
    obtain ⟨e1, e2⟩ := rows_empty (A := A) (B := B) (n := n) (base := np + qs0.length) (j := n - 1) h1
    refine ⟨s, rfl, ⟨?_, h.tlen, h.blen, h.top, ?_, ?_, ?_, ?_⟩⟩
    · rw [facesUpTo_succ, crossUpTo_succ, e1, e2, List.append_nil, List.append_nil]; exact h.holds
    · intro j hj; rw [xnum_emptyA h1]; exact h.bot j hj
    · rcases h.k1 with h | h
      · exact Or.inl h
      · right; omega
    · rcases h.k2 with h | h
      · exact Or.inl h
      · right; omega
    · rcases h.j with h | h
      · exact Or.inl h
      · right; omega
  · rw [if_neg (fun e => h1 (pinched_iff.1 e))]
    have hj0 : s.j ≤ n - 1 := by rcases h.j with h | h <;> omega
    have hbelow : ∀ j', j' < s.j → faceX (A.layer i) (B.layer j') = false ∧ ¬ Cross A B (i + 1) (j' + 1) := by
      intro j' hj'
      have e1 := mono_le hB.monoP (show j' + 1 ≤ s.j by omega) (by omega)
      have e2 := mono_le hB.monoQ (show j' + 1 ≤ s.j by omega) (by omega)
      refine faceX_false_below ?_ ?_ ⟨hAi, hAq⟩ ⟨hB.monoP _ (by omega), hB.monoQ _ (by omega)⟩
      · rcases h.j with h | h <;> omega
      · rcases h.j with h | h <;> omega
    have hnoX : ∀ j', j' ≤ s.j → ¬ Cross A B (i + 1) j' := by
      intro j' hj'
      cases j' with
      | zero => exact cross_last hA hB (by omega)
      | succ j' => exact (hbelow j' (by omega)).2
    obtain ⟨e1, e2⟩ := rows_nil (n := n) (base := np + qs0.length) hbelow
    have hrow : RowInv A B n np capF capC capX capP fs0 qs0 i s := by
      refine ⟨hj0, ?_, h.tlen, h.blen, h.bot, ?_, fun j _ hj => h.top j hj, ?_, ?_⟩
      · rw [e1, e2, List.append_nil, List.append_nil]; exact h.holds
      · intro j hj; rw [xnum_no (hnoX j hj)]; exact h.top j (by omega)
      · rcases h.k1 with h | h
        · exact Or.inl h
        · right; omega
      · rcases h.k2 with h | h
        · exact Or.inl h
        · right; omega
    obtain ⟨s1, e3, g1, g2, g3⟩ := row_ok hA hB hpb hqb hi h1 hr hrow
    obtain ⟨t, e4, g4, g5⟩ := fill_ok (n := n) (t := s1.bot) g1.blen
    rw [e3, bind_ok, e4, bind_ok]
    have habove : ∀ j', s1.j ≤ j' → j' < n - 1 → faceX (A.layer i) (B.layer j') = false ∧ ¬ Cross A B (i + 1) (j' + 1) := by
      intro j' hj' hn
      have e1 := mono_le hB.monoP hj' (by omega)
      have e2 := mono_le hB.monoQ hj' (by omega)
      refine faceX_false_above ?_ ?_ ⟨hAi, hAq⟩ ⟨hB.monoP _ (by omega), hB.monoQ _ (by omega)⟩
      · rcases g3 with h | h <;> omega
      · rcases g3 with h | h <;> omega
    obtain ⟨e5, e6⟩ := rows_tail (n := n) (base := np + qs0.length) g1.le habove
    refine ⟨_, rfl, ⟨?_, g4, g1.tlen, g5, ?_, g1.k1, g1.k2, ?_⟩⟩
    · rw [facesUpTo_succ, crossUpTo_succ, e5, e6]
      exact ⟨g1.holds.nf, g1.holds.f, g1.holds.c, g1.holds.x, g1.holds.plen, g1.holds.ptr, g1.holds.nn⟩
    · intro j hj
      simp only
      rcases Nat.lt_or_ge s1.j j with hl | hg
      · have hc : ¬ Cross A B (i + 1) j := by
          have := (habove (j - 1) (by omega) (by omega)).2
          rwa [Nat.sub_add_cancel (by omega)] at this
        rw [xnum_no hc]
        exact g1.todo j hl hj
      · exact g1.done j hg
    · simp only
      rcases g1.k1 with h1 | h1
      · left; omega
      · rcases g1.k2 with h2 | h2
        · left; omega
        · right
          have e1 := mono_le hB.monoP (Nat.min_le_left s1.k1 s1.k2) h1.1
          have e2 := mono_le hB.monoQ (Nat.min_le_right s1.k1 s1.k2) h2.1
          omega

theorem cross_bottom (hA : A.Ok n) (hB : B.Ok n) {j : Nat} (hj : j < n) : ¬ Cross A B (n - 1) j := by
  have h1 := mono_le hB.monoP (show j ≤ n - 1 by omega) (by omega)
  have h2 := mono_le hB.monoQ (show j ≤ n - 1 by omega) (by omega)
  have h3 := hA.last
  have h4 := hB.last
  unfold Cross
  omega

theorem cross_top (hA : A.Ok n) (hB : B.Ok n) {j : Nat} (hj : j < n) : ¬ Cross A B 0 j := by
  have h1 := mono_le hB.monoP (Nat.zero_le j) hj
  have h2 := mono_le hB.monoQ (Nat.zero_le j) hj
  have h3 := hA.first
  have h4 := hB.first
  unfold Cross
  omega

/-- `findconnections` adds the faces `connFaces` and the crossings `crossings`, and leaves the work array as it found it. -/
theorem findConnections_ok {plist : List Int} {pa qa pb qb : Nat} (hA : A.Ok n) (hB : B.Ok n) (hpa : ColAt plist pa n A.p) (hqa : ColAt plist qa n A.q)
    (hpb : ColAt plist pb n B.p) (hqb : ColAt plist qb n B.q)
    (hr : Room capF capC capX capP (fs0 ++ connFaces A B n (np + qs0.length)) (qs0 ++ crossings A B n)) {f c x : Cur Int} {ptr : List Nat} {w0 w1 : List Int}
    (hf : f.Rep capF (faceNodes fs0)) (hc : c.Rep capC (faceNbrs fs0)) (hx : x.Rep capX qs0.flatten) (hp : ptr.length = capP)
    (hpt : ptr.take (fs0.length + 1) = facePtr fs0) (h0 : w0 = List.replicate n (-1)) (h1 : w1 = List.replicate n (-1)) :
    ∃ s', findConnections plist pa qa pb qb n f c x ptr fs0.length (np + qs0.length) w0 w1 = .ok s' ∧
      Holds np capF capC capX capP s' (fs0 ++ connFaces A B n (np + qs0.length)) (qs0 ++ crossings A B n) ∧ s'.top = List.replicate n (-1) ∧
      s'.bot = List.replicate n (-1) := by
  have hrep : ∀ j, j < n → (List.replicate n (-1 : Int))[j]? = some (-1) := by
    intro j hj; rw [List.getElem?_replicate, if_pos hj]
  have hall : ∀ {l : List Int}, l.length = n → (∀ j, j < n → l[j]? = some (-1)) → l = List.replicate n (-1) := by
    intro l h1 h2
    apply List.ext_getElem?
    intro j
    rcases Nat.lt_or_ge j n with hj | hj
    · rw [h2 j hj, hrep j hj]
    · rw [List.getElem?_eq_none (by omega), List.getElem?_eq_none (by simpa using hj)]
  subst h0; subst h1
  unfold findConnections
  obtain ⟨s', e, h⟩ := loop_inv (n := n - 1) (f := Conn.line plist pa qa pb qb n)
    (s := { f := f, c := c, x := x, ptr := ptr, nf := fs0.length, nn := np + qs0.length, top := List.replicate n (-1), bot := List.replicate n (-1), sw := false, k1 := 0, k2 := 0, j := 0 })
    (fun i s => LineInv A B n np capF capC capX capP fs0 qs0 i s) (by
      refine ⟨?_, by simp, by simp, hrep, ?_, Or.inl rfl, Or.inl rfl, Or.inl rfl⟩
      · show Holds np capF capC capX capP _ (fs0 ++ []) (qs0 ++ [])
        rw [List.append_nil, List.append_nil]
        exact ⟨rfl, hf, hc, hx, hp, hpt, rfl⟩
      · intro j hj
        rw [xnum_no (cross_top hA hB hj)]
        exact hrep j hj) (fun i t hi ht => line_ok hA hB hpa hqa hpb hqb hi hr ht)
  refine ⟨s', e, h.holds, hall h.tlen h.top, hall h.blen fun j hj => ?_⟩
  rw [← xnum_no (n := n) (base := np + qs0.length) (cross_bottom hA hB hj)]
  exact h.bot j hj

end

/-! ### Sizes -/

section
variable {A B : Stack} {n : Nat}

theorem length_flatMap_le {α β : Type _} {l : List α} {f : α → List β} {d : Nat} (h : ∀ x ∈ l, (f x).length ≤ d) : (l.flatMap f).length ≤ l.length * d := by
  induction l with
  | nil => simp
  | cons x l ih =>
    have h1 := h x List.mem_cons_self
    have h2 := ih (fun y hy => h y (List.mem_cons_of_mem _ hy))
    rw [List.flatMap_cons, List.length_append, List.length_cons, Nat.succ_mul]
    omega

theorem length_connFaces (base : Nat) : (connFaces A B n base).length ≤ (n - 1) * (n - 1) := by
  have h : ∀ i ∈ List.range (n - 1), (rowFaces A B n base i (n - 1)).length ≤ n - 1 := by
    intro i _
    have := length_flatMap_le (l := List.range (n - 1)) (f := faceAt A B n base i) (d := 1) (by
      intro j _; unfold faceAt; split <;> simp)
    unfold rowFaces
    rw [List.length_range, Nat.mul_one] at this
    exact this
  have := length_flatMap_le h
  rw [List.length_range] at this
  exact this

theorem length_crossings : (crossings A B n).length ≤ (n - 1) * (n - 1) := by
  have h : ∀ i ∈ List.range (n - 1), (rowCross A B i (n - 1)).length ≤ n - 1 := by
    intro i _
    have := length_flatMap_le (l := List.range (n - 1)) (f := crossAt A B i) (d := 1) (by
      intro j _; unfold crossAt; split <;> simp)
    unfold rowCross
    rw [List.length_range, Nat.mul_one] at this
    exact this
  have := length_flatMap_le h
  rw [List.length_range] at this
  exact this

theorem mem_crossings {q : List Int} : q ∈ crossings A B n ↔
    ∃ i j, i < n - 1 ∧ j < n - 1 ∧ ¬ A.Empty i ∧ ¬ B.Empty j ∧ Cross A B (i + 1) (j + 1) ∧ q = quad A B (i + 1) (j + 1) := by
  unfold crossings crossUpTo rowCross
  simp only [List.mem_flatMap, List.mem_range]
  constructor
  · rintro ⟨i, hi, j, hj, h⟩
    unfold crossAt at h
    split at h
    · rename_i hc
      exact ⟨i, j, hi, hj, hc.1, hc.2.1, hc.2.2, List.mem_singleton.1 h⟩
    · cases h
  · rintro ⟨i, j, hi, hj, h1, h2, h3, rfl⟩
    refine ⟨i, hi, j, hj, ?_⟩
    unfold crossAt
    rw [if_pos ⟨h1, h2, h3⟩]
    exact List.mem_singleton_self _

theorem length_flatten4 {l : List (List Int)} (h : ∀ q ∈ l, q.length = 4) : l.flatten.length = 4 * l.length := by
  induction l with
  | nil => rfl
  | cons q l ih =>
    rw [List.flatten_cons, List.length_append, ih (fun x hx => h x (List.mem_cons_of_mem _ hx)), h q List.mem_cons_self, List.length_cons]
    omega

theorem quad_length {q : List Int} (h : q ∈ crossings A B n) : q.length = 4 := by
  obtain ⟨i, j, _, _, _, _, _, rfl⟩ := mem_crossings.1 h
  rfl

theorem mem_connFaces {base : Nat} {f : Face} : f ∈ connFaces A B n base ↔
    ∃ i j, i < n - 1 ∧ j < n - 1 ∧ Makes A B i j ∧ f = ⟨cellOf i, cellOf j, pairNodes A B n base i j⟩ := by
  unfold connFaces facesUpTo rowFaces
  simp only [List.mem_flatMap, List.mem_range]
  constructor
  · rintro ⟨i, hi, j, hj, h⟩
    unfold faceAt at h
    split at h
    · rename_i hc
      exact ⟨i, j, hi, hj, hc, List.mem_singleton.1 h⟩
    · cases h
  · rintro ⟨i, j, hi, hj, h1, rfl⟩
    refine ⟨i, hi, j, hj, ?_⟩
    unfold faceAt
    rw [if_pos h1]
    exact List.mem_singleton_self _

end

end Opm.Cpg
