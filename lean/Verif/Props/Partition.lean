import Verif.Proofs.PartitionUnif
import Mathlib.Data.List.Nodup
import Mathlib.Data.List.Perm.Subperm
/-!
# C06–C09: partition compression, inversion, local indices, uniform partitions
-/

namespace Opm.Partition
open Opm Opm.Graph Opm.Bucket

/-- **C06.** `partition_compress` on any nonempty vector of non-negative block numbers succeeds; the
new numbers are ordered exactly like the old ones (so cells share a block after iff they did
before), they are all in `0 … m`, every number in `0 … m` is used, and `m` is returned. -/
theorem compress_renumbers (p : List Int) (hne : p ≠ []) (hpos : ∀ x ∈ p, 0 ≤ x) :
    ∃ p' m, compress p.length p = .ok (p', m) ∧ p'.length = p.length ∧
      (∀ (i j : Nat) (a b a' b' : Int), p[i]? = some a → p[j]? = some b → p'[i]? = some a' → p'[j]? = some b' →
        (a' ≤ b' ↔ a ≤ b)) ∧
      (∀ x ∈ p', 0 ≤ x ∧ x ≤ m) ∧ (∀ x, 0 ≤ x → x ≤ m → x ∈ p') := by
  obtain ⟨q, rfl⟩ := exists_ints p hpos
  have hq : q ≠ [] := by rintro rfl; exact hne rfl
  obtain ⟨hmem, hnb⟩ := nb_mem hq
  refine ⟨_, _, by rw [ints_length]; exact compress_ok q hq, by simp [ints], ?_, ?_, ?_⟩
  · intro i j a b a' b' ha hb ha' hb'
    simp only [ints, List.getElem?_map, Option.map_eq_some_iff] at ha hb ha' hb'
    obtain ⟨x, hx, rfl⟩ := ha
    obtain ⟨y, hy, rfl⟩ := hb
    obtain ⟨_, ⟨x', hx', rfl⟩, rfl⟩ := ha'
    obtain ⟨_, ⟨y', hy', rfl⟩, rfl⟩ := hb'
    rw [hx] at hx'; cases hx'
    rw [hy] at hy'; cases hy'
    constructor
    · intro h
      by_contra hc
      have := used_lt (List.mem_of_getElem? hy) (show y < x by omega)
      omega
    · intro h
      have := used_mono q (show x ≤ y by omega)
      omega
  · intro x hx
    simp only [ints, List.mem_map] at hx
    obtain ⟨_, ⟨v, hv, rfl⟩, rfl⟩ := hx
    have := used_lt hv (lt_nb hv)
    omega
  · intro x h0 hx
    obtain ⟨u, _, hu, he⟩ := used_surj q (nb q) x.toNat (by omega)
    simp only [ints, List.mem_map]
    exact ⟨used q u, ⟨u, hu, rfl⟩, by omega⟩

/-- Non-vacuity and an actual run. -/
example : compress 5 [3, 0, 7, 3, 9] = .ok ([1, 0, 2, 1, 3], 3) := by decide +kernel

/-- **C07.** Let the block numbers of `p` be non-negative and `nbin` be one more than the largest
(`0` if there are no cells).  With buffers of the sizes `partition_allocate_inverse` provides,
`partition_invert` stays in bounds, its own sanity assertion holds, and it stores a
compressed-row map: row `b` lists exactly the cells of block `b`, each once, in increasing order. -/
theorem invert_lists_blocks (p : List Int) (nbin : Nat) (pi inverse : List Nat) (hpos : ∀ x ∈ p, 0 ≤ x)
    (hub : ∀ x ∈ p, x < nbin) (hmax : nbin = 0 ∨ ((nbin : Int) - 1) ∈ p) (hpi : pi.length = nbin + 1)
    (hinv : inverse.length = p.length) :
    ∃ pi' inv', invert p.length p pi inverse = .ok (pi', inv') ∧ pi'.length = nbin + 1 ∧
      pi'[0]? = some 0 ∧ pi'[nbin]? = some p.length ∧ inv'.length = p.length ∧ inv'.Perm (List.range p.length) ∧
      ∀ b : Nat, b < nbin → block inv' pi' b = (List.range p.length).filter (fun c => p[c]? = some (b : Int)) := by
  obtain ⟨q, rfl⟩ := exists_ints p hpos
  have hnb : nb q = nbin := by
    have h1 : nb q ≤ nbin := nb_le (fun x hx => by
      have := hub x (List.mem_map.2 ⟨x, hx, rfl⟩); omega)
    rcases hmax with h | h
    · omega
    · simp only [ints, List.mem_map] at h
      obtain ⟨x, hx, he⟩ := h
      have := lt_nb hx
      omega
  subst hnb
  rw [ints_length] at hinv ⊢
  have htot : start q.zipIdx (nb q) = q.length := by
    rw [start_total _ _ (zipIdx_lt (fun x hx => lt_nb hx))]; simp
  have hfl : ((rows (nb q) q.zipIdx).flatten).length = q.length := by rw [← start_eq, htot]
  refine ⟨_, _, invert_ok q pi inverse hpi hinv, by rw [boundaries_length, rows_length],
    by rw [boundaries_rows_get _ _ (by omega)]; rfl,
    by rw [boundaries_rows_get _ _ (Nat.le_refl _), htot], hfl, ?_, ?_⟩
  · -- a duplicate-free list of `n` numbers below `n`
    have hnd : ((rows (nb q) q.zipIdx).flatten).Nodup := by
      rw [List.nodup_flatten]
      constructor
      · intro r hr
        simp only [rows, List.mem_map] at hr
        obtain ⟨b, _, rfl⟩ := hr
        exact rowOf_zipIdx_nodup q b
      · unfold rows
        rw [List.pairwise_map]
        refine List.Pairwise.imp ?_ (List.pairwise_lt_range)
        intro a b hab x hx hx'
        rw [mem_rowOf_zipIdx] at hx hx'
        rw [hx] at hx'
        simp at hx'; omega
    have hsub : (rows (nb q) q.zipIdx).flatten ⊆ List.range q.length := by
      intro c hc
      rw [List.mem_flatten] at hc
      obtain ⟨r, hr, hcr⟩ := hc
      simp only [rows, List.mem_map] at hr
      obtain ⟨b, _, rfl⟩ := hr
      exact List.mem_range.2 (List.getElem?_eq_some_iff.1 (mem_rowOf_zipIdx.1 hcr)).1
    exact (hnd.subperm hsub).perm_of_length_le (by rw [hfl]; simp)
  · intro b hb
    have := block_eq (rows (nb q) q.zipIdx) [] (rows_get hb)
    rw [List.append_nil] at this
    rw [this, rowOf_zipIdx]
    apply List.filter_congr
    intro c _
    simp [ints]

/-- Non-vacuity and an actual run. -/
example : invert 5 [2, 0, 2, 0, 3] [9, 9, 9, 9, 9] [7, 7, 7, 7, 7] = .ok ([0, 2, 2, 4, 5], [1, 3, 0, 2, 4]) := by
  decide +kernel

/-- **C08.** Run on the output of `partition_invert`, `partition_localidx` stays in bounds and gives
each cell its rank inside its own block: the number of smaller cells of that block. -/
theorem localidx_rank (p : List Int) (nbin : Nat) (pi inverse loc : List Nat) (hpos : ∀ x ∈ p, 0 ≤ x)
    (hub : ∀ x ∈ p, x < nbin) (hmax : nbin = 0 ∨ ((nbin : Int) - 1) ∈ p) (hpi : pi.length = nbin + 1)
    (hinv : inverse.length = p.length) (hloc : loc.length = p.length) :
    ∃ pi' inv' loc', invert p.length p pi inverse = .ok (pi', inv') ∧
      localidx nbin pi' inv' loc = .ok loc' ∧ loc'.length = p.length ∧
      ∀ c : Nat, c < p.length → loc'[c]? = some ((List.range c).countP (fun d => p[d]? = p[c]?)) := by
  obtain ⟨q, rfl⟩ := exists_ints p hpos
  have hnb : nb q = nbin := by
    have h1 : nb q ≤ nbin := nb_le (fun x hx => by
      have := hub x (List.mem_map.2 ⟨x, hx, rfl⟩); omega)
    rcases hmax with h | h
    · omega
    · simp only [ints, List.mem_map] at h
      obtain ⟨x, hx, he⟩ := h
      have := lt_nb hx
      omega
  subst hnb
  rw [ints_length] at hinv hloc ⊢
  obtain ⟨loc', h1, h2, h3⟩ := localidx_ok q loc hloc
  refine ⟨_, _, loc', invert_ok q pi inverse hpi hinv, h1, h2, ?_⟩
  intro c hc
  have hx := List.getElem?_eq_getElem hc
  refine h3 q[c] _ c ?_
  rw [rowOf_zipIdx]
  -- the cells below `c` come first
  have hsplit : List.range q.length = List.range c ++ c :: (List.range (q.length - (c + 1))).map (fun x => c + 1 + x) := by
    have e : q.length = (c + 1) + (q.length - (c + 1)) := by omega
    conv => lhs; rw [e, List.range_add, List.range_succ]
    simp
  rw [hsplit, List.filter_append, List.filter_cons]
  simp only [hx, decide_true, if_true]
  have hl : (List.countP (fun d => decide ((ints q)[d]? = (ints q)[c]?)) (List.range c)) =
      ((List.range c).filter (fun c_1 => decide (q[c_1]? = some q[c]))).length := by
    rw [List.countP_eq_length_filter]
    congr 1
    apply List.filter_congr
    intro d hd
    have hdc : d < q.length := by have := List.mem_range.1 hd; omega
    simp [ints, hdc, hc]
  rw [hl, List.getElem?_append_right (Nat.le_refl _), Nat.sub_self]
  rfl

example : (do
    let inv ← invert 5 [2, 0, 2, 0, 3] [9, 9, 9, 9, 9] [7, 7, 7, 7, 7]
    localidx 4 inv.1 inv.2 [8, 8, 8, 8, 8]) = .ok [0, 0, 1, 1, 0] := by decide +kernel

/-- **C09.** For every number of dimensions and all `1 ≤ coarse ≤ fine`, `partition_unif_idx` succeeds
on all valid cell indices; cell `c` goes to the coarse block whose Cartesian index along every axis
is obtained from the fine Cartesian index along that axis by a balanced distribution that depends
only on that axis' fine and coarse sizes. -/
theorem unif_idx_balanced :
    ∃ ax : Nat → Nat → Nat → Nat, (∀ F C, 1 ≤ C → C ≤ F → Balanced F C (ax F C)) ∧
      ∀ (fine coarse idx : List Nat) (p : List Int), fine ≠ [] →
        List.Forall₂ (fun C F => 1 ≤ C ∧ C ≤ F) coarse fine → (∀ x ∈ idx, x < fine.prod) →
        p.length = idx.length →
        ∃ p', unifIdx fine coarse idx p = .ok p' ∧ p'.length = idx.length ∧
          ∀ c x : Nat, idx[c]? = some x → ∃ B : Nat, p'[c]? = some (B : Int) ∧ B < coarse.prod ∧
            ∀ i F C : Nat, fine[i]? = some F → coarse[i]? = some C →
              digit coarse i B = ax F C (digit fine i x) := by
  refine ⟨bal, fun F C h1 h2 => bal_balanced h1 h2, ?_⟩
  intro fine coarse idx p hne hdim hidx hp
  have hf1 : ∀ d ∈ fine, 1 ≤ d := by
    intro d hd
    obtain ⟨i, hi⟩ := List.mem_iff_getElem?.1 hd
    obtain ⟨hl, h2⟩ := List.forall₂_iff_get.1 hdim
    have hil := (List.getElem?_eq_some_iff.1 hi).1
    have := h2 i (by omega) hil
    have hd' : fine.get ⟨i, hil⟩ = d := (List.getElem?_eq_some_iff.1 hi).2
    rw [hd'] at this
    omega
  have hlen : coarse.length = fine.length := hdim.length_eq
  obtain ⟨d0, ds, rfl⟩ : ∃ d0 ds, coarse = d0 :: ds := by
    cases coarse with
    | nil => exact absurd (List.length_eq_zero_iff.1 hlen.symm) hne
    | cons d ds => exact ⟨d, ds, rfl⟩
  have hcell : ∀ x, x < fine.prod → ∃ ys B, coordIdx fine x = .ok (digs fine x) ∧
      loadBal fine (d0 :: ds) (digs fine x) = .ok ys ∧ linIdx (d0 :: ds) ys = .ok B ∧ B < (d0 :: ds).prod ∧
      ∀ i F C : Nat, fine[i]? = some F → (d0 :: ds)[i]? = some C → digit (d0 :: ds) i B = bal F C (digit fine i x) := by
    intro x hx
    obtain ⟨ys, e1, h1, h2⟩ := loadBal_ok fine (d0 :: ds) (digs fine x) hdim (digs_lt fine x hf1)
    obtain ⟨B, e2, h3, h4⟩ := linIdx_ok d0 ds ys h1
    refine ⟨ys, B, coordIdx_ok fine x hf1 hx, e1, e2, h3, ?_⟩
    intro i F C hF hC
    have hil := (List.getElem?_eq_some_iff.1 hC).1
    have h5 := h2 i F C _ hF hC (digs_digit fine i x (by omega))
    have h6 := digs_digit (d0 :: ds) i B hil
    rw [h4, h5] at h6
    simpa using h6.symm
  obtain ⟨t, ht, hl, hP⟩ := loop_inv (n := idx.length) (s := p)
    (f := fun c p => do
      let x ← rd idx c
      let ix ← coordIdx fine x
      let ix ← loadBal fine (d0 :: ds) ix
      let b ← linIdx (d0 :: ds) ix
      wr p c (b : Int))
    (fun k t => t.length = idx.length ∧ ∀ c x : Nat, c < k → idx[c]? = some x →
      ∃ B : Nat, t[c]? = some (B : Int) ∧ B < (d0 :: ds).prod ∧ ∀ i F C : Nat, fine[i]? = some F →
        (d0 :: ds)[i]? = some C → digit (d0 :: ds) i B = bal F C (digit fine i x))
    ⟨hp, by intro c x h; omega⟩
    (by
      rintro k t hk ⟨hl, hP⟩
      have hx := List.getElem?_eq_getElem hk
      obtain ⟨ys, B, e1, e2, e3, hlt, hdig⟩ := hcell idx[k] (hidx _ (List.getElem_mem hk))
      refine ⟨_, by rw [rd_of_getElem? hx, bind_ok, e1, bind_ok, e2, bind_ok, e3, bind_ok, wr_ok (by omega)],
        by simpa using hl, ?_⟩
      intro c x hc hcx
      by_cases hck : c = k
      · subst hck
        rw [hx] at hcx; cases hcx
        exact ⟨B, by rw [List.getElem?_set_self (by omega)], hlt, hdig⟩
      · rw [List.getElem?_set_ne (by omega)]
        exact hP c x (by omega) hcx)
  exact ⟨t, ht, hl, fun c x hcx => hP c x (List.getElem?_eq_some_iff.1 hcx).1 hcx⟩

/-- Non-vacuity and an actual run: a 5×3 box into 2×2 blocks. -/
example : unifIdx [5, 3] [2, 2] (List.range 15) (List.replicate 15 0) =
    .ok [0, 0, 0, 1, 1, 0, 0, 0, 1, 1, 2, 2, 2, 3, 3] := by decide +kernel

/-- More bins than entities along an axis makes the code divide by zero. -/
theorem unif_idx_too_many_bins : unifIdx [2] [3] [0] [0] = .error .ub := by decide +kernel

end Opm.Partition
