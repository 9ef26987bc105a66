import Verif.Model.Partition
import Verif.Proofs.Bucket
import Mathlib.Data.List.Induction
/-! # Partition vectors: maximum, compression, inversion, local indices -/

namespace Opm.Partition
open Opm Opm.Graph Opm.Bucket

/-- A partition vector without negative entries. -/
def ints (q : List Nat) : List Int := q.map (fun x : Nat => (x : Int))

theorem ints_get {q : List Nat} {i x : Nat} (h : q[i]? = some x) : (ints q)[i]? = some (x : Int) := by
  simp [ints, h]

theorem ints_length (q : List Nat) : (ints q).length = q.length := by simp [ints]

theorem exists_ints (p : List Int) (h : ∀ x ∈ p, 0 ≤ x) : ∃ q, p = ints q := by
  refine ⟨p.map Int.toNat, ?_⟩
  unfold ints
  rw [List.map_map]
  conv => lhs; rw [← List.map_id p]
  apply List.map_congr_left
  intro x hx
  have := h x hx
  simp only [id, Function.comp]; omega

/-- One more than the largest entry. -/
def nb : List Nat → Nat
  | [] => 0
  | x :: q => max (x + 1) (nb q)

theorem nb_append (a b : List Nat) : nb (a ++ b) = max (nb a) (nb b) := by
  induction a with
  | nil => simp [nb]
  | cons x a ih => simp only [List.cons_append, nb, ih]; omega

theorem lt_nb {q : List Nat} {x : Nat} (h : x ∈ q) : x < nb q := by
  induction q with
  | nil => simp at h
  | cons y q ih =>
    simp only [nb]
    rcases List.mem_cons.1 h with rfl | h
    · omega
    · have := ih h; omega

theorem nb_le {q : List Nat} {n : Nat} (h : ∀ x ∈ q, x < n) : nb q ≤ n := by
  induction q with
  | nil => simp [nb]
  | cons y q ih =>
    have := ih (fun x hx => h x (List.mem_cons_of_mem _ hx))
    have := h y (List.mem_cons_self ..)
    simp only [nb]; omega

theorem nb_mem {q : List Nat} (h : q ≠ []) : nb q - 1 ∈ q ∧ 0 < nb q := by
  induction q with
  | nil => exact absurd rfl h
  | cons y q ih =>
    simp only [nb]
    by_cases hq : q = []
    · subst hq; simp [nb]
    · obtain ⟨h1, h2⟩ := ih hq
      rcases Nat.lt_or_ge (nb q) (y + 1) with h3 | h3
      · rw [Nat.max_eq_left (by omega)]; simp
      · rw [Nat.max_eq_right h3]
        exact ⟨List.mem_cons_of_mem _ h1, h2⟩

theorem take_succ_get {α : Type _} {q : List α} {i : Nat} {x : α} (h : q[i]? = some x) :
    q.take (i + 1) = q.take i ++ [x] := by
  rw [List.take_add_one, h]; rfl

theorem maxBlock_ok (q : List Nat) : maxBlock q.length (ints q) = .ok ((nb q : Int) - 1) := by
  obtain ⟨t, ht, hP⟩ := loop_inv (n := q.length) (s := (-1 : Int))
    (f := fun i m => do
      let x ← rd (ints q) i
      .ok (max m x))
    (fun i t => t = (nb (q.take i) : Int) - 1) (by simp [nb])
    (by
      rintro i t hi rfl
      have hx := List.getElem?_eq_getElem hi
      refine ⟨_, by rw [rd_of_getElem? (ints_get hx), bind_ok], ?_⟩
      rw [take_succ_get hx, nb_append]
      simp only [nb]; omega)
  unfold maxBlock
  rw [ht, hP, List.take_length]

/-! ### Compression -/

/-- Number of used block numbers below `v`. -/
def used (q : List Nat) : Nat → Nat
  | 0 => 0
  | v + 1 => used q v + if v ∈ q then 1 else 0

theorem used_mono (q : List Nat) {a b : Nat} (h : a ≤ b) : used q a ≤ used q b := by
  induction b with
  | zero => obtain rfl : a = 0 := by omega
            exact Nat.le_refl _
  | succ b ih =>
    rcases Nat.lt_or_ge a (b + 1) with h1 | h1
    · have := ih (by omega); simp only [used]; omega
    · obtain rfl : a = b + 1 := by omega
      exact Nat.le_refl _

theorem used_lt {q : List Nat} {a b : Nat} (ha : a ∈ q) (h : a < b) : used q a < used q b := by
  have := used_mono q (show a + 1 ≤ b from h)
  simp only [used, if_pos ha] at this; omega

theorem used_surj (q : List Nat) (v k : Nat) (h : k < used q v) : ∃ u, u < v ∧ u ∈ q ∧ used q u = k := by
  induction v with
  | zero => simp [used] at h
  | succ v ih =>
    rcases Nat.lt_or_ge k (used q v) with h1 | h1
    · obtain ⟨u, h2, h3, h4⟩ := ih h1
      exact ⟨u, by omega, h3, h4⟩
    · simp only [used] at h
      split at h
      · rename_i hv
        exact ⟨v, by omega, hv, by omega⟩
      · omega

theorem compress_ok (q : List Nat) (hq : q ≠ []) :
    compress q.length (ints q) = .ok (ints (q.map (used q)), (used q (nb q) : Int) - 1) := by
  obtain ⟨hmem, hpos⟩ := nb_mem hq
  have hlen : 0 < q.length := List.length_pos_iff.2 hq
  -- maximum
  obtain ⟨m, hm, hmP⟩ := loop_inv (n := q.length) (s := (-1 : Int))
    (f := fun i m => do
      let x ← rd (ints q) i
      check (decide (0 ≤ x))
      .ok (max m x))
    (fun i t => t = (nb (q.take i) : Int) - 1) (by simp [nb])
    (by
      rintro i t hi rfl
      have hx := List.getElem?_eq_getElem hi
      refine ⟨_, by
        rw [rd_of_getElem? (ints_get hx), bind_ok, check_ok (by simp), bind_ok], ?_⟩
      rw [take_succ_get hx, nb_append]
      simp only [nb]; omega)
  rw [List.take_length] at hmP
  subst hmP
  have hN : ((nb q : Int) - 1 + 1).toNat = nb q := by omega
  -- counts
  obtain ⟨c1, hc1, hl1, hP1⟩ := loop_inv (n := q.length) (s := List.replicate (nb q) (0 : Int))
    (f := fun i compr => do
      let x ← rd (ints q) i
      let v ← rdI compr x
      wrI compr x (v + 1))
    (fun i t => t.length = nb q ∧ ∀ v : Nat, v < nb q → t[v]? = some (((q.take i).count v : Nat) : Int))
    ⟨by simp, by intro v hv; simp [hv]⟩
    (by
      rintro i t hi ⟨hl, hP⟩
      have hx := List.getElem?_eq_getElem hi
      have hxl : q[i] < nb q := lt_nb (List.getElem_mem hi)
      refine ⟨_, by
        rw [rd_of_getElem? (ints_get hx), bind_ok, rdI_natCast, rd_of_getElem? (hP _ hxl), bind_ok,
          wrI_natCast, wr_ok (by omega)], by simpa using hl, ?_⟩
      intro v hv
      rw [take_succ_get hx, List.count_append]
      by_cases hvx : v = q[i]
      · subst hvx
        rw [List.getElem?_set_self (by omega)]; simp
      · rw [List.getElem?_set_ne (fun e => hvx e.symm), hP v hv]
        have : List.count v [q[i]] = 0 := by
          rw [List.count_eq_zero]; simpa using hvx
        rw [this]; simp)
  rw [List.take_length] at hP1
  -- ranks
  have hpos1 : ∀ v, v < nb q → ((((q.count v : Nat) : Int) > 0) ↔ v ∈ q) := by
    intro v hv
    have := List.count_pos_iff (a := v) (l := q)
    constructor
    · intro h; exact this.1 (by omega)
    · intro h; have := this.2 h; omega
  obtain ⟨c2, hc2, hl2, hP2⟩ := loop_inv (n := ((nb q : Int) - 1).toNat)
    (s := c1.set 0 (-1 + (if ((q.count 0 : Nat) : Int) > 0 then 1 else 0)))
    (f := fun k compr => do
      let a ← rd compr k
      let v ← rd compr (k + 1)
      wr compr (k + 1) (a + (if v > 0 then 1 else 0)))
    (fun i t => t.length = nb q ∧ ∀ v : Nat, v < nb q →
      t[v]? = some (if v ≤ i then (used q (v + 1) : Int) - 1 else ((q.count v : Nat) : Int)))
    (by
      refine ⟨by simpa using hl1, ?_⟩
      intro v hv
      by_cases hv0 : v = 0
      · subst hv0
        rw [List.getElem?_set_self (by omega)]
        simp only [Nat.le_refl, if_true, used, hpos1 0 hv]
        split <;> simp
      · rw [List.getElem?_set_ne (by omega), hP1 v hv, if_neg (by omega)])
    (by
      rintro i t hi ⟨hl, hP⟩
      have h1 := hP i (by omega)
      have h2 := hP (i + 1) (by omega)
      rw [if_pos (Nat.le_refl _)] at h1
      rw [if_neg (by omega)] at h2
      refine ⟨_, by rw [rd_of_getElem? h1, bind_ok, rd_of_getElem? h2, bind_ok, wr_ok (by omega)],
        by simpa using hl, ?_⟩
      intro v hv
      by_cases hvi : v = i + 1
      · subst hvi
        rw [List.getElem?_set_self (by omega), if_pos (Nat.le_refl _)]
        simp only [hpos1 (i + 1) hv]
        rw [show used q (i + 1 + 1) = used q (i + 1) + if i + 1 ∈ q then 1 else 0 from rfl]
        congr 1
        split <;> simp
      · rw [List.getElem?_set_ne (fun e => hvi e.symm), hP v hv]
        by_cases h3 : v ≤ i
        · rw [if_pos h3, if_pos (by omega)]
        · rw [if_neg h3, if_neg (by omega)])
  -- renumbering
  obtain ⟨p', hp', hl3, hP3, hP4⟩ := loop_inv (n := q.length) (s := ints q)
    (f := fun i p => do
      let x ← rd p i
      let v ← rdI c2 x
      wr p i v)
    (fun i t => t.length = q.length ∧
      (∀ j : Nat, j < i → t[j]? = (q.map (fun v => (used q v : Int)))[j]?) ∧
      (∀ j : Nat, i ≤ j → t[j]? = (ints q)[j]?))
    ⟨by simp [ints], by intro j hj; omega, fun _ _ => rfl⟩
    (by
      rintro i t hi ⟨hl, hP, hP'⟩
      have hx := List.getElem?_eq_getElem hi
      have hxm : q[i] ∈ q := List.getElem_mem hi
      have hxl : q[i] < nb q := lt_nb hxm
      have h2 := hP2 q[i] hxl
      rw [if_pos (by omega)] at h2
      have h3 : (used q (q[i] + 1) : Int) - 1 = used q q[i] := by
        simp only [used, if_pos hxm]; omega
      rw [h3] at h2
      refine ⟨_, by
        rw [rd_of_getElem? ((hP' i (Nat.le_refl _)).trans (ints_get hx)), bind_ok, rdI_natCast,
          rd_of_getElem? h2, bind_ok, wr_ok (by omega)], by simpa using hl, ?_, ?_⟩
      · intro j hj
        by_cases hji : j = i
        · subst hji; rw [List.getElem?_set_self (by omega)]; simp [hi]
        · rw [List.getElem?_set_ne (by omega)]; exact hP j (by omega)
      · intro j hj
        rw [List.getElem?_set_ne (by omega)]; exact hP' j (by omega))
  have hfin : p' = ints (q.map (used q)) := by
    apply List.ext_getElem?
    intro j
    rcases Nat.lt_or_ge j q.length with h | h
    · rw [hP3 j h]; simp [ints, h]
    · rw [List.getElem?_eq_none (by omega), List.getElem?_eq_none (by simpa [ints] using h)]
  have hret := hP2 (nb q - 1) (by omega)
  rw [if_pos (by omega), show nb q - 1 + 1 = nb q by omega] at hret
  unfold compress
  rw [check_ok (by simpa using hlen), bind_ok, hm, bind_ok, hN, fill_ok _ _ _ (by simp), bind_ok]
  simp only [List.drop_replicate, Nat.sub_self, List.replicate_zero, List.append_nil]
  rw [hc1, bind_ok, rd_of_getElem? (hP1 0 hpos), bind_ok, wr_ok (by omega), bind_ok, hc2, bind_ok, hp', bind_ok,
    rdI_of_getElem? (n := nb q - 1) (by omega) hret, bind_ok, hfin]

/-! ### Inversion -/

theorem zipIdx_take_succ {q : List Nat} {i x : Nat} (h : q[i]? = some x) :
    (q.take (i + 1)).zipIdx = (q.take i).zipIdx ++ [(x, i)] := by
  have hi := (List.getElem?_eq_some_iff.1 h).1
  rw [take_succ_get h, List.zipIdx_append]
  simp
  omega

theorem rowOf_zipIdx (q : List Nat) (b : Nat) :
    rowOf q.zipIdx b = (List.range q.length).filter (fun c => q[c]? = some b) := by
  induction q using List.reverseRecOn with
  | nil => rfl
  | append_singleton q x ih =>
    rw [List.zipIdx_append]
    simp only [List.zipIdx_cons, List.zipIdx_nil, Nat.zero_add, List.length_append, List.length_singleton,
      List.range_succ, List.filter_append]
    have h1 : (List.range q.length).filter (fun c => (q ++ [x])[c]? = some b) =
        (List.range q.length).filter (fun c => q[c]? = some b) := by
      apply List.filter_congr
      intro c hc
      rw [List.getElem?_append_left (by simpa using hc)]
    rw [h1]
    by_cases hxb : x = b
    · subst hxb
      rw [rowOf_snoc_self, ih]; simp
    · rw [rowOf_snoc_ne _ _ hxb, ih]; simp [hxb]

theorem zipIdx_lt {q : List Nat} {n : Nat} (h : ∀ x ∈ q, x < n) : ∀ p ∈ q.zipIdx, p.1 < n := by
  intro p hp
  have := List.fst_mem_of_mem_zipIdx hp
  exact h _ this

/-- What `partition_invert` leaves behind. -/
theorem invert_ok (q : List Nat) (pi inverse : List Nat) (hpi : pi.length = nb q + 1)
    (hinv : inverse.length = q.length) :
    invert q.length (ints q) pi inverse =
      .ok (boundaries 0 (rows (nb q) q.zipIdx), (rows (nb q) q.zipIdx).flatten) := by
  have hN : ((nb q : Int) - 1 + 1).toNat = nb q := by omega
  obtain ⟨c1, hc1, hC⟩ := loop_inv (n := q.length) (s := List.replicate (nb q + 1) 0)
    (f := fun i pi => do
      let x ← rd (ints q) i
      if x + 1 < 0 then .error .ub else bump pi (x + 1).toNat)
    (fun i t => Counted (nb q) (q.take i).zipIdx t ∧ t.length = nb q + 1)
    ⟨by simpa using counted_replicate (nb q), by simp⟩
    (by
      rintro i t hi hC
      have hx := List.getElem?_eq_getElem hi
      have hxl : q[i] < nb q := lt_nb (List.getElem_mem hi)
      obtain ⟨t', ht', hC', hl'⟩ := bump_counted hC.1 i hxl
      refine ⟨t', ?_, by rw [zipIdx_take_succ hx]; exact hC', by rw [hl']; exact hC.2⟩
      rw [rd_of_getElem? (ints_get hx), bind_ok, if_neg (by omega),
        show ((q[i] : Int) + 1).toNat = q[i] + 1 by omega]
      exact ht')
  rw [List.take_length] at hC
  obtain ⟨c2, hc2, hl2, h02, hs2⟩ := accumulate_ok hC.1
  rw [hC.2] at hl2
  have htot : start q.zipIdx (nb q) = q.length := by
    rw [start_total _ _ (zipIdx_lt (fun x hx => lt_nb hx))]; simp
  obtain ⟨s, hs, hP⟩ := loop_inv (n := q.length) (s := (c2, inverse))
    (f := fun i s => do
      let x ← rd (ints q) i
      if x + 1 < 0 then .error .ub else pushAt (x + 1).toNat i s)
    (fun i t => Pushing (nb q) q.zipIdx (q.take i).zipIdx t ∧ t.1.length = nb q + 1 ∧ t.2.length = q.length)
    ⟨by simpa using pushing_init (by omega) hs2 (by omega), hl2, hinv⟩
    (by
      rintro i t hi ⟨hP, htl1, htl⟩
      have hx := List.getElem?_eq_getElem hi
      have hxl : q[i] < nb q := lt_nb (List.getElem_mem hi)
      have hall : q.zipIdx = (q.take i).zipIdx ++ (q[i], i) :: (q.drop (i + 1)).zipIdx (i + 1) := by
        conv => lhs; rw [← List.take_append_drop (i + 1) q, List.zipIdx_append, zipIdx_take_succ hx]
        simp [Nat.min_eq_left (show i + 1 ≤ q.length from hi)]
      obtain ⟨t', ht', hP', _, hl1', hl'⟩ := push_step hall hxl hP
      refine ⟨t', ?_, by rw [zipIdx_take_succ hx]; exact hP', by omega, by omega⟩
      rw [rd_of_getElem? (ints_get hx), bind_ok, if_neg (by omega),
        show ((q[i] : Int) + 1).toNat = q[i] + 1 by omega]
      exact ht')
  rw [List.take_length] at hP
  obtain ⟨hd1, hd2⟩ := push_done hP.1
  rw [List.take_of_length_le (by simp; omega)] at hd1
  have hlast : s.1[nb q]? = some q.length := by
    rcases Nat.eq_zero_or_pos (nb q) with h0 | hpos
    · -- no cells at all
      have hq : q = [] := by
        by_contra hq
        have := (nb_mem hq).2
        omega
      subst hq
      simp only [nb, start, List.length_nil] at h02 ⊢
      simp at hs
      subst hs
      exact h02
    · have := hP.1.ptr (nb q - 1) (by omega)
      rw [show nb q - 1 + 1 = nb q by omega] at this
      rw [this]
      have h1 : start q.zipIdx (nb q - 1 + 1) = start q.zipIdx (nb q - 1) + (rowOf q.zipIdx (nb q - 1)).length := rfl
      rw [show nb q - 1 + 1 = nb q by omega, htot] at h1
      rw [h1]
  unfold invert
  rw [maxBlock_ok, bind_ok]
  simp only [hN]
  rw [fill_ok _ _ _ (by omega), bind_ok, List.drop_eq_nil_of_le (by omega), List.append_nil, hc1, bind_ok, hc2, bind_ok,
    hs, bind_ok, rd_of_getElem? hlast, bind_ok, check_ok (by simp), bind_ok, wr_ok (by omega), bind_ok,
    hd1]
  rw [hd2, htot, List.drop_eq_nil_of_le (by omega), List.append_nil]

/-! ### Local indices -/

theorem flatten_get {α : Type _} (rs : List (List α)) {b k : Nat} {r : List α} {c : α} (hb : rs[b]? = some r)
    (hk : r[k]? = some c) : rs.flatten[(rs.take b).flatten.length + k]? = some c := by
  induction rs generalizing b with
  | nil => simp at hb
  | cons r0 rs ih =>
    cases b with
    | zero =>
      simp at hb
      subst hb
      rw [List.flatten_cons, List.getElem?_append_left (by
        have := (List.getElem?_eq_some_iff.1 hk).1
        simpa using this)]
      simpa using hk
    | succ b =>
      have := ih (b := b) (by simpa using hb)
      simp only [List.flatten_cons, List.take_succ_cons, List.length_append]
      rw [List.getElem?_append_right (by omega)]
      rw [show r0.length + (rs.take b).flatten.length + k - r0.length = (rs.take b).flatten.length + k by omega]
      exact this

theorem rows_flatten_get {m : Nat} {items : List (Nat × Nat)} {b k c : Nat} (hb : b < m)
    (hk : (rowOf items b)[k]? = some c) : (rows m items).flatten[start items b + k]? = some c := by
  have := flatten_get (rows m items) (rows_get hb) hk
  rwa [take_rows (by omega), ← start_eq] at this

theorem rowOf_zipIdx_nodup (q : List Nat) (b : Nat) : (rowOf q.zipIdx b).Nodup := by
  rw [rowOf_zipIdx]
  exact List.nodup_range.filter _

theorem mem_rowOf_zipIdx {q : List Nat} {b c : Nat} : c ∈ rowOf q.zipIdx b ↔ q[c]? = some b := by
  rw [rowOf_zipIdx, List.mem_filter]
  constructor
  · intro h; simpa using h.2
  · intro h
    have := (List.getElem?_eq_some_iff.1 h).1
    exact ⟨List.mem_range.2 this, by simpa using h⟩

theorem row_pos_inj {q : List Nat} {b b' k k' c : Nat} (h : (rowOf q.zipIdx b)[k]? = some c)
    (h' : (rowOf q.zipIdx b')[k']? = some c) : b = b' ∧ k = k' := by
  have h1 := mem_rowOf_zipIdx.1 (List.mem_of_getElem? h)
  have h2 := mem_rowOf_zipIdx.1 (List.mem_of_getElem? h')
  rw [h1] at h2
  obtain rfl : b = b' := by simpa using h2
  refine ⟨rfl, ?_⟩
  have hk := (List.getElem?_eq_some_iff.1 h).1
  exact (List.getElem?_inj hk (rowOf_zipIdx_nodup q b)).1 (h.trans h'.symm)

theorem localidx_ok (q : List Nat) (loc : List Nat) (hloc : loc.length = q.length) :
    ∃ loc', localidx (nb q) (boundaries 0 (rows (nb q) q.zipIdx)) (rows (nb q) q.zipIdx).flatten loc = .ok loc' ∧
      loc'.length = q.length ∧
      ∀ b k c : Nat, (rowOf q.zipIdx b)[k]? = some c → loc'[c]? = some k := by
  have hcl : ∀ {b c : Nat}, c ∈ rowOf q.zipIdx b → c < q.length := fun h =>
    (List.getElem?_eq_some_iff.1 (mem_rowOf_zipIdx.1 h)).1
  obtain ⟨t, ht, hl, hP⟩ := loop_inv (n := nb q) (s := loc)
    (f := fun b loc => do
      let a ← rd (boundaries 0 (rows (nb q) q.zipIdx)) b
      let e ← rd (boundaries 0 (rows (nb q) q.zipIdx)) (b + 1)
      forRange a e (fun i loc => do
        let c ← rd (rows (nb q) q.zipIdx).flatten i
        let a ← rd (boundaries 0 (rows (nb q) q.zipIdx)) b
        wr loc c (i - a)) loc)
    (fun b t => t.length = q.length ∧
      ∀ b' k c : Nat, b' < b → (rowOf q.zipIdx b')[k]? = some c → t[c]? = some k)
    ⟨hloc, by intro b' k c h; omega⟩
    (by
      rintro b t hb ⟨hl, hP⟩
      have ha := boundaries_rows_get (nb q) q.zipIdx (show b ≤ nb q by omega)
      have he := boundaries_rows_get (nb q) q.zipIdx (show b + 1 ≤ nb q from hb)
      rw [rd_of_getElem? ha, bind_ok, rd_of_getElem? he, bind_ok]
      obtain ⟨t', ht', hl', hP1, hP2⟩ := loop_inv (n := start q.zipIdx (b + 1) - start q.zipIdx b) (s := t)
        (f := fun i loc => do
          let c ← rd (rows (nb q) q.zipIdx).flatten (start q.zipIdx b + i)
          wr loc c (start q.zipIdx b + i - start q.zipIdx b))
        (fun i u => u.length = q.length ∧
          (∀ b' k c : Nat, b' < b → (rowOf q.zipIdx b')[k]? = some c → u[c]? = some k) ∧
          (∀ k c : Nat, k < i → (rowOf q.zipIdx b)[k]? = some c → u[c]? = some k))
        ⟨hl, hP, by intro k c h; omega⟩
        (by
          rintro i u hi ⟨hl, hP1, hP2⟩
          have hil : i < (rowOf q.zipIdx b).length := by simp only [start] at hi; omega
          have hc := List.getElem?_eq_getElem hil
          have hcn : (rowOf q.zipIdx b)[i] < q.length := hcl (List.getElem_mem hil)
          refine ⟨_, by
            rw [rd_of_getElem? (rows_flatten_get hb hc), bind_ok,
              wr_ok (by omega), Nat.add_sub_cancel_left], by simpa using hl, ?_, ?_⟩
          · intro b' k c hb' hk
            rw [List.getElem?_set_ne]
            · exact hP1 b' k c hb' hk
            · intro e
              rw [e] at hc
              have := (row_pos_inj hc hk).1
              omega
          · intro k c hk hck
            by_cases hki : k = i
            · subst hki
              rw [hck] at hc
              cases hc
              rw [List.getElem?_set_self (by
                have := hcl (List.mem_of_getElem? hck)
                omega)]
            · rw [List.getElem?_set_ne]
              · exact hP2 k c (by omega) hck
              · intro e
                rw [e] at hc
                have := (row_pos_inj hc hck).2
                omega)
      refine ⟨t', ht', hl', ?_⟩
      intro b' k c hb' hk
      rcases Nat.lt_or_ge b' b with h | h
      · exact hP1 b' k c h hk
      · obtain rfl : b' = b := by omega
        refine hP2 k c ?_ hk
        have := (List.getElem?_eq_some_iff.1 hk).1
        simp only [start]; omega)
  refine ⟨t, ht, hl, ?_⟩
  intro b k c hk
  refine hP b k c ?_ hk
  have := mem_rowOf_zipIdx.1 (List.mem_of_getElem? hk)
  exact lt_nb (List.mem_of_getElem? this)

end Opm.Partition
