import Verif.Model.SparseSys
import Verif.Proofs.Bucket
/-! # Proofs about CSR construction, row sorting and lookup -/

namespace Opm.SparseSys
open Opm Opm.Graph Opm.Bucket

theorem countAll_ok {m : Nat} {counted : List Nat} (hk : ∀ r ∈ counted, r < m) {A : Csr}
    (hA : Counted m ([] : List (Nat × Nat)) A.ia) :
    ∃ A', counted.foldlM countElm A = .ok A' ∧ Counted m (counted.map (fun r => (r, 0))) A'.ia ∧
      A'.ia.length = A.ia.length ∧ A'.m = A.m := by
  refine foldlM_inv (fun done (B : Csr) => Counted m (done.map (fun r => (r, 0))) B.ia ∧ B.ia.length = A.ia.length ∧ B.m = A.m)
    ⟨hA, rfl, rfl⟩ ?_
  rintro done r rest B hl ⟨hC, hlen, hm⟩
  obtain ⟨ia', e, h1, h2⟩ := bump_counted hC 0 (hk r (by rw [hl]; simp))
  refine ⟨{ B with ia := ia' }, ?_, by simpa using h1, by simp only; omega, hm⟩
  unfold countElm
  rw [e, bind_ok]

theorem rowOf_length {α : Type _} (items : List (Nat × α)) (r : Nat) :
    (rowOf items r).length = (items.map Prod.fst).count r := by
  induction items with
  | nil => rfl
  | cons p l ih =>
    obtain ⟨a, x⟩ := p
    unfold rowOf at *
    rw [List.filterMap_cons, List.map_cons, List.count_cons]
    by_cases h : a = r
    · simp [h, ih]
    · simp [h, ih]

theorem counted_perm {m : Nat} {counted : List Nat} {items : List (Nat × Nat)} (hp : counted.Perm (items.map Prod.fst))
    {ia : List Nat} (h : Counted m (counted.map (fun r => (r, 0))) ia) : Counted m items ia where
  len := h.len
  zero := h.zero
  cnt := by
    intro r hr
    rw [h.cnt r hr, rowOf_length, rowOf_length, List.map_map]
    congr 1
    rw [← hp.count_eq]
    congr 1
    exact List.map_id _

theorem pushAll_ok {m : Nat} {items : List (Nat × Nat)} (hk : ∀ p ∈ items, p.1 < m) {A : Csr}
    (hA : Pushing m items [] (A.ia, A.ja)) (h0 : A.ia[0]? = some 0) :
    ∃ A', items.foldlM (fun A p => pushElm A p.1 p.2) A = .ok A' ∧ Pushing m items items (A'.ia, A'.ja) ∧
      A'.ia[0]? = some 0 ∧ A'.ia.length = A.ia.length ∧ A'.ja.length = A.ja.length ∧ A'.m = A.m ∧ A'.nnz = A.nnz := by
  refine foldlM_inv (fun done (B : Csr) => Pushing m items done (B.ia, B.ja) ∧ B.ia[0]? = some 0 ∧
    B.ia.length = A.ia.length ∧ B.ja.length = A.ja.length ∧ B.m = A.m ∧ B.nnz = A.nnz) ⟨hA, h0, rfl, rfl, rfl, rfl⟩ ?_
  rintro done ⟨r, c⟩ rest B hl ⟨hP, hz, hl1, hl2, hm, hn⟩
  obtain ⟨s', e, h1, h2, h3, h4⟩ := push_step (r := r) (v := c) hl (hk (r, c) (by rw [hl]; simp)) hP
  refine ⟨{ B with ia := s'.1, ja := s'.2 }, ?_, h1, ?_, ?_, ?_, hm, hn⟩
  · unfold pushElm
    rw [e, bind_ok]
  · rw [← hz]; exact h2
  · simp only at h3 ⊢; omega
  · simp only at h4 ⊢; omega

theorem build_ok (junk : Nat → Nat) {m : Nat} {counted : List Nat} {items : List (Nat × Nat)} (hm : 0 < m) (hne : items ≠ [])
    (hp : counted.Perm (items.map Prod.fst)) (hk : ∀ p ∈ items, p.1 < m) :
    build junk m counted items = .ok { m := m, nnz := items.length, ia := boundaries 0 (rows m items), ja := (rows m items).flatten } := by
  obtain ⟨A1, e1, hC', hl1, hm1⟩ := countAll_ok (m := m) (counted := counted)
    (A := { m := m, nnz := 0, ia := List.replicate (m + 1) 0, ja := [] })
    (by
      intro r hr
      obtain ⟨p, hp1, rfl⟩ := List.mem_map.1 (hp.mem_iff.1 hr)
      exact hk p hp1)
    (counted_replicate m)
  have hC := counted_perm hp hC'
  obtain ⟨ia2, e2, hl2, hz2, hs2⟩ := accumulate_ok hC
  have htot : start items m = items.length := start_total _ _ hk
  have hpos : 0 < items.length := List.length_pos_iff.2 hne
  have hlen : ia2.length = m + 1 := by rw [hl2, hl1]; simp
  obtain ⟨A3, e3, hP, hz3, hl3, hl4, hm3, hn3⟩ := pushAll_ok
    (A := { m := m, nnz := start items m, ia := ia2.set 0 0, ja := (List.range (start items m)).map junk }) hk
    (pushing_init (by simp [hlen]) (by
      intro r hr
      rw [List.getElem?_set_ne (by omega)]; exact hs2 r hr) (by simp))
    (by rw [List.getElem?_set_self (by omega)])
  obtain ⟨hd1, hd2⟩ := push_done hP
  have hia : A3.ia = boundaries 0 (rows m items) := by
    rw [← hd1]
    have h0 : A3.ia.set 0 0 = A3.ia := by
      apply List.ext_getElem?
      intro i
      by_cases hi : i = 0
      · subst hi
        rw [hz3, List.getElem?_set_self (by rw [hl3]; simp [hlen])]
      · rw [List.getElem?_set_ne (by omega)]
    simp only [h0]
    rw [List.take_of_length_le (by rw [hl3]; simp [hlen])]
  have hja : A3.ja = (rows m items).flatten := by
    refine Eq.trans hd2 ?_
    rw [List.drop_eq_nil_of_le, List.append_nil]
    rw [hl4]; simp
  unfold build
  unfold newCountNnz
  rw [check_ok (by simpa using hm), bind_ok, bind_ok, e1, bind_ok]
  unfold elmsPushback
  rw [rd_of_getElem? hC.zero, bind_ok, check_ok (by simp), bind_ok, hm1]
  simp only
  rw [e2, bind_ok, rd_of_getElem? hz2, bind_ok, check_ok (by rw [htot]; simpa using hpos), bind_ok,
    wr_ok (by omega), bind_ok, bind_ok, e3]
  congr 1
  cases A3
  simp only at *
  subst hia hja hm3 hn3
  simp [htot]

/-! ### Sorting rows -/

theorem sortSegment_ok {a b : Nat} {ja : List Nat} (h1 : a ≤ b) (h2 : b ≤ ja.length) :
    sortSegment a b ja = .ok (ja.take a ++ ((ja.drop a).take (b - a)).insertionSort (· ≤ ·) ++ ja.drop b) := by
  unfold sortSegment; rw [if_pos ⟨h1, h2⟩]

theorem sorted_seg {a b : Nat} {ja ja' : List Nat} (h1 : a ≤ b) (h2 : b ≤ ja.length)
    (h : ja' = ja.take a ++ ((ja.drop a).take (b - a)).insertionSort (· ≤ ·) ++ ja.drop b) :
    ja'.length = ja.length ∧ ja'.take a = ja.take a ∧ ja'.drop b = ja.drop b ∧
      (ja'.drop a).take (b - a) = ((ja.drop a).take (b - a)).insertionSort (· ≤ ·) := by
  have hl1 : (ja.take a).length = a := by simp; omega
  have hl2 : (((ja.drop a).take (b - a)).insertionSort (· ≤ ·)).length = b - a := by simp; omega
  subst h
  refine ⟨by simp; omega, ?_, ?_, ?_⟩
  · rw [List.append_assoc, List.take_append_of_le_length (by omega), List.take_take, Nat.min_self]
  · rw [List.drop_append, List.drop_eq_nil_of_le (by rw [List.length_append]; omega), List.nil_append, List.length_append, hl1, hl2]
    rw [show b - (a + (b - a)) = 0 by omega, List.drop_zero]
  · rw [List.append_assoc, List.drop_append, List.drop_eq_nil_of_le (by omega), List.nil_append, hl1, Nat.sub_self, List.drop_zero]
    rw [List.take_append_of_le_length (by omega), List.take_of_length_le (by omega)]

theorem seg_of_take_drop {l l' : List Nat} {a b c : Nat} (hor : (l'.take a = l.take a ∧ c ≤ a) ∨ (l'.drop a = l.drop a ∧ a ≤ b)) :
    (l'.drop b).take (c - b) = (l.drop b).take (c - b) := by
  rcases hor with ⟨h, hc⟩ | ⟨h, hb⟩
  · have key : ∀ x : List Nat, (x.drop b).take (c - b) = ((x.take a).drop b).take (c - b) := by
      intro x
      rw [List.drop_take, List.take_take, Nat.min_eq_left (by omega)]
    rw [key l', key l, h]
  · have key : ∀ x : List Nat, x.drop b = (x.drop a).drop (b - a) := by
      intro x; rw [List.drop_drop]; congr 1; omega
    rw [key l', key l, h]

theorem sortrows_ok {m nc : Nat} {ia ja : List Nat} (wf : CSR m nc ia ja) :
    ∃ ja', sortrows m ia ja = .ok ja' ∧ ja'.length = ja.length ∧
      (∀ r : Nat, r < m → block ja' ia r = (block ja ia r).insertionSort (· ≤ ·)) ∧
      ja'.take (ia.getD 0 0) = ja.take (ia.getD 0 0) ∧ ja'.drop (ia.getD m 0) = ja.drop (ia.getD m 0) := by
  have hblk : ∀ (l : List Nat) (r : Nat), r < m → block l ia r = (l.drop (ia.getD r 0)).take (ia.getD (r + 1) 0 - ia.getD r 0) := by
    intro l r hr
    unfold block
    rw [ia_get wf (by omega), ia_get wf (i := r + 1) hr]
  obtain ⟨t, ht, hl, hdone, htodo, h0, hE⟩ := loop_inv (n := m) (s := ja)
    (f := fun i ja => do
      let a ← rd ia i
      let b ← rd ia (i + 1)
      sortSegment a b ja)
    (fun k t => t.length = ja.length ∧ (∀ r : Nat, r < k → block t ia r = (block ja ia r).insertionSort (· ≤ ·)) ∧
      (t.drop (ia.getD k 0) = ja.drop (ia.getD k 0)) ∧ t.take (ia.getD 0 0) = ja.take (ia.getD 0 0) ∧ k ≤ m)
    ⟨rfl, by intro r hr; omega, rfl, rfl, by omega⟩
    (by
      rintro k t hk ⟨hl, hdone, htodo, h0, _⟩
      have h1 := ia_mono wf (i := k) (j := k + 1) (by omega) hk
      have h2 := ia_bound wf (i := k + 1) hk
      obtain ⟨g1, g2, g3, g4⟩ := sorted_seg (ja := t) h1 (by omega) rfl
      refine ⟨_, by rw [rd_of_getElem? (ia_get wf (by omega)), bind_ok, rd_of_getElem? (ia_get wf (i := k + 1) hk), bind_ok,
        sortSegment_ok h1 (by omega)], by omega, ?_, ?_, ?_, hk⟩
      · intro r hr
        by_cases hrk : r = k
        · subst hrk
          rw [hblk _ r hk, hblk _ r hk, g4, htodo]
        · rw [hblk _ r (by omega), ← hdone r (by omega), hblk _ r (by omega)]
          have h3 := ia_mono wf (i := r + 1) (j := k) (by omega) (by omega)
          exact seg_of_take_drop (.inl ⟨g2, h3⟩)
      · rw [g3]
        have key : ∀ x : List Nat, x.drop (ia.getD (k + 1) 0) = (x.drop (ia.getD k 0)).drop (ia.getD (k + 1) 0 - ia.getD k 0) := by
          intro x; rw [List.drop_drop]; congr 1; omega
        rw [key t, key ja, htodo]
      · have h3 := ia_mono wf (i := 0) (j := k) (by omega) (by omega)
        have key : ∀ x : List Nat, x.take (ia.getD 0 0) = (x.take (ia.getD k 0)).take (ia.getD 0 0) := by
          intro x; rw [List.take_take, Nat.min_eq_left h3]
        rw [key, g2, ← key, h0])
  exact ⟨t, ht, hl, hdone, h0, htodo⟩

/-! ### Binary search -/

theorem bsearch_ok {ja : List Nat} {j : Nat} (fuel l u : Nat) (hu : u ≤ ja.length) (hf : u - l < fuel)
    (hs : ∀ i k x y : Nat, l ≤ i → i ≤ k → k < u → ja[i]? = some x → ja[k]? = some y → x ≤ y) :
    ∃ r, bsearch ja j fuel l u = .ok r ∧ (∀ k, r = some k → l ≤ k ∧ k < u ∧ ja[k]? = some j) ∧
      (r = none → ∀ k, l ≤ k → k < u → ja[k]? ≠ some j) := by
  induction fuel generalizing l u with
  | zero => omega
  | succ fuel ih =>
    unfold bsearch
    by_cases hlu : l < u
    · rw [if_pos hlu]
      simp only
      have hmid : (l + u) / 2 < ja.length := by omega
      have hg := List.getElem?_eq_getElem hmid
      rw [rd_of_getElem? hg, bind_ok]
      by_cases h1 : j < ja[(l + u) / 2]
      · rw [if_pos h1]
        obtain ⟨r, e, hr1, hr2⟩ := ih l ((l + u) / 2) (by omega) (by omega)
          (fun i k x y a b c d e => hs i k x y a b (by omega) d e)
        refine ⟨r, e, fun k hk => ?_, fun hn k hk1 hk2 hk3 => ?_⟩
        · obtain ⟨a, b, c⟩ := hr1 k hk
          exact ⟨a, by omega, c⟩
        · by_cases hkm : k < (l + u) / 2
          · exact hr2 hn k hk1 hkm hk3
          · have := hs ((l + u) / 2) k _ _ (by omega) (by omega) hk2 hg hk3
            omega
      · rw [if_neg h1]
        by_cases h2 : ja[(l + u) / 2] < j
        · rw [if_pos h2]
          obtain ⟨r, e, hr1, hr2⟩ := ih ((l + u) / 2 + 1) u hu (by omega)
            (fun i k x y a b c d e => hs i k x y (by omega) b c d e)
          refine ⟨r, e, fun k hk => ?_, fun hn k hk1 hk2 hk3 => ?_⟩
          · obtain ⟨a, b, c⟩ := hr1 k hk
            exact ⟨by omega, b, c⟩
          · by_cases hkm : (l + u) / 2 < k
            · exact hr2 hn k (by omega) hk2 hk3
            · have := hs k ((l + u) / 2) _ _ hk1 (by omega) (by omega) hk3 hg
              omega
        · rw [if_neg h2]
          refine ⟨_, rfl, fun k hk => ?_, fun hn => by cases hn⟩
          cases hk
          refine ⟨by omega, by omega, ?_⟩
          rw [hg]; congr 1; omega
    · rw [if_neg hlu]
      exact ⟨none, rfl, (fun k hk => by cases hk), fun _ k h1 h2 => by omega⟩

end Opm.SparseSys
