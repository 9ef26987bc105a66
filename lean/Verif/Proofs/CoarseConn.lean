import Verif.Spec.CoarseConn
import Verif.Proofs.HashSet
import Verif.Proofs.Rows
import Verif.Proofs.Bucket
/-! # Lemmas about coarse grid topologies: the neighbour lists of the blocks -/

namespace Opm.CoarseConn
open Opm

variable {h : Int → Nat → Nat} {jn : Nat → Option Neighbour} {expct : Int}

/-- The fine connections of a coarse connection. -/
def Neighbour.conns (nb : Neighbour) : List Int :=
  match nb.fconns with
  | none => []
  | some t => HashSet.keys t.s

/-- The connection set is in order: a hash set if sub-faces are wanted, absent otherwise. -/
structure SetOk (h : Int → Nat → Nat) (expct : Int) (nb : Neighbour) : Prop where
  some : 0 < expct → ∃ q s, nb.fconns = Option.some { m := 2 ^ q, s := s } ∧ HashSet.Inv h q s
  none : ¬ 0 < expct → nb.fconns = Option.none

/-- `bns` stores the list `L`. -/
structure Holds (bns : Neighbours) (L : List Neighbour) : Prop where
  num : bns.nneigh = L.length
  cap : bns.neigh.length = bns.cpty
  pos : 1 ≤ bns.cpty
  dat : ∃ r, bns.neigh = L.map some ++ r

/-- The list is sorted on the block number and its connection sets are in order. -/
structure Good (h : Int → Nat → Nat) (expct : Int) (L : List Neighbour) : Prop where
  sorted : L.Pairwise (fun x y => x.b < y.b)
  sets : ∀ nb ∈ L, SetOk h expct nb

theorem mem_keys {s : List Int} {x : Int} : x ∈ HashSet.keys s ↔ x ∈ s ∧ x ≠ -1 := by
  unfold HashSet.keys
  rw [List.mem_filter]
  simp

theorem insertFconn_ok (hh : ∀ k : Int, 0 ≤ k → ∀ m, 0 < m → h k m < m) {nb : Neighbour} (hs : SetOk h expct nb)
    {f : Int} (hf : 0 ≤ f) :
    ∃ r nb', insertFconn h f nb = .ok (r, nb') ∧ 0 ≤ r ∧ nb'.b = nb.b ∧ SetOk h expct nb' ∧
      (0 < expct → ∀ x, x ∈ nb'.conns ↔ x ∈ nb.conns ∨ x = f) := by
  unfold insertFconn
  by_cases he : 0 < expct
  · obtain ⟨q, s, e, hI⟩ := hs.some he
    obtain ⟨q', s', e', _, hI', hm⟩ := HashSet.insert_ok hh hf hI
    rw [e]
    simp only
    rw [e', bind_ok]
    refine ⟨f, _, rfl, hf, rfl, ⟨fun _ => ⟨q', s', rfl, hI'⟩, fun h => absurd he h⟩, ?_⟩
    intro _ x
    simp only [Neighbour.conns, e, mem_keys]
    constructor
    · rintro ⟨h1, h2⟩
      rcases (hm x h2).1 h1 with h | h
      · exact .inl ⟨h, h2⟩
      · exact .inr h
    · rintro (⟨h1, h2⟩ | rfl)
      · exact ⟨(hm x h2).2 (.inl h1), h2⟩
      · have : x ≠ -1 := by omega
        exact ⟨(hm x this).2 (.inr rfl), this⟩
  · rw [hs.none he]
    exact ⟨0, nb, rfl, Int.le_refl _, rfl, hs, fun h => absurd h he⟩

theorem allocate_ok (hx : expct < 2 ^ 63) : SetOk h expct (neighbourAllocate expct) ∧ (neighbourAllocate expct).conns = [] := by
  unfold neighbourAllocate
  by_cases he : 0 < expct
  · rw [if_pos he]
    obtain ⟨q, e, _⟩ := HashSet.hashSetSize_ok (m := expct.toNat) (by omega)
    have e' : HashSet.allocate expct.toNat = { m := 2 ^ q, s := List.replicate (2 ^ q) (-1) } := by
      unfold HashSet.allocate; rw [e]
    refine ⟨⟨fun _ => ⟨q, _, by rw [e'], HashSet.inv_empty h q⟩, fun h => absurd he h⟩, ?_⟩
    simp only [Neighbour.conns, e']
    rw [List.eq_nil_iff_forall_not_mem]
    intro x hx
    rw [mem_keys] at hx
    exact hx.2 (List.mem_replicate.1 hx.1).2
  · rw [if_neg he]
    exact ⟨⟨fun h => absurd h he, fun _ => rfl⟩, rfl⟩

theorem Holds.get {bns : Neighbours} {L : List Neighbour} (H : Holds bns L) {i : Nat} (hi : i < L.length) :
    bns.neigh[i]? = some (some L[i]) := by
  obtain ⟨r, e⟩ := H.dat
  rw [e, List.getElem?_append_left (by simpa using hi)]
  simp [hi]

theorem search_ok {bns : Neighbours} {L : List Neighbour} (H : Holds bns L) (hs : L.Pairwise (fun x y => x.b < y.b)) (b : Int) :
    ∃ i, search bns b = .ok i ∧ i ≤ L.length ∧ (∀ (k : Nat) (nb : Neighbour), k < i → L[k]? = some nb → nb.b < b) ∧
      ∀ (k : Nat) (nb : Neighbour), i ≤ k → L[k]? = some nb → b ≤ nb.b := by
  have hmono : ∀ (j k : Nat) (x y : Neighbour), j < k → L[j]? = some x → L[k]? = some y → x.b < y.b := by
    intro j k x y hjk hx hy
    obtain ⟨h1, rfl⟩ := List.getElem?_eq_some_iff.1 hx
    obtain ⟨h2, rfl⟩ := List.getElem?_eq_some_iff.1 hy
    exact (List.pairwise_iff_getElem.1 hs) j k h1 h2 hjk
  unfold search
  obtain ⟨t, ht, h1, h2, h3⟩ := whileFuel_inv
    (f := searchStep bns b)
    (fun s => s.1 ≤ s.2 ∧ s.2 ≤ L.length ∧ (∀ (k : Nat) (nb : Neighbour), k < s.1 → L[k]? = some nb → nb.b < b) ∧
      ∀ (k : Nat) (nb : Neighbour), s.2 ≤ k → L[k]? = some nb → b ≤ nb.b)
    (fun s => s.1 ≤ L.length ∧ (∀ (k : Nat) (nb : Neighbour), k < s.1 → L[k]? = some nb → nb.b < b) ∧
      ∀ (k : Nat) (nb : Neighbour), s.1 ≤ k → L[k]? = some nb → b ≤ nb.b)
    (fun s => s.2 - s.1)
    (by
      rintro ⟨i, j⟩ ⟨hij, hj, hlo, hhi⟩
      simp only at hij hj hlo hhi
      unfold searchStep
      by_cases hlt : i < j
      · rw [if_pos hlt]
        simp only
        have hp : (i + j) / 2 < L.length := by omega
        have hg : L[(i + j) / 2]? = some L[(i + j) / 2] := List.getElem?_eq_getElem hp
        rw [rd_of_getElem? (H.get hp), bind_ok]
        simp only
        by_cases hb : L[(i + j) / 2].b < b
        · rw [if_pos hb]
          refine ⟨_, _, rfl, fun _ => ⟨⟨by simp only; omega, hj, ?_, hhi⟩, by simp only; omega⟩, by simp⟩
          intro k nb hk hnb
          rcases Nat.lt_or_ge k ((i + j) / 2) with h | h
          · have := hmono k _ _ _ h hnb hg; omega
          · obtain rfl : k = (i + j) / 2 := by simp only at hk; omega
            rw [hg] at hnb; cases hnb; exact hb
        · rw [if_neg hb]
          have hge : ∀ (k : Nat) (nb : Neighbour), (i + j) / 2 ≤ k → L[k]? = some nb → b ≤ nb.b := by
            intro k nb hk hnb
            rcases Nat.lt_or_ge ((i + j) / 2) k with h | h
            · have := hmono _ k _ _ h hg hnb; omega
            · obtain rfl : k = (i + j) / 2 := by omega
              rw [hg] at hnb; cases hnb; omega
          by_cases hb2 : L[(i + j) / 2].b > b
          · rw [if_pos hb2]
            exact ⟨_, _, rfl, fun _ => ⟨⟨by simp only; omega, by simp only; omega, hlo, hge⟩, by simp only; omega⟩, by simp⟩
          · rw [if_neg hb2]
            refine ⟨_, _, rfl, fun _ => ⟨⟨Nat.le_refl _, by simp only; omega, ?_, hge⟩, by simp only; omega⟩, by simp⟩
            intro k nb hk hnb
            have := hmono k _ _ _ hk hnb hg
            omega
      · rw [if_neg hlt]
        refine ⟨_, _, rfl, by simp, fun _ => ⟨by simp only; omega, hlo, fun k nb hk hnb => hhi k nb (by simp only at hk; omega) hnb⟩⟩)
    (s := (0, bns.nneigh)) (k := bns.nneigh + 1)
    ⟨Nat.zero_le _, by rw [H.num], by intro k nb hk; exact absurd hk (Nat.not_lt_zero _),
      fun k nb hk hnb => by
        have := (List.getElem?_eq_some_iff.1 hnb).1
        have h2 := H.num
        simp only at hk
        omega⟩ (by simp only; omega)
  exact ⟨t.1, by rw [ht]; rfl, h1, h2, h3⟩

theorem expand_holds {bns : Neighbours} {L : List Neighbour} (H : Holds bns L) {n : Nat} (hn : bns.cpty ≤ n) :
    ∃ bns', neighboursExpand jn n bns = .ok ((n : Int), bns') ∧ Holds bns' L ∧ bns'.cpty = n := by
  unfold neighboursExpand
  simp only
  obtain ⟨r, e⟩ := H.dat
  have hc := H.cap
  have hnum := H.num
  have hpos := H.pos
  have hle : L.length ≤ n := by
    rw [e] at hc; simp at hc; omega
  rw [forRange_bfill _ _ _ _ (by simp), bind_ok, show max bns.nneigh n = n by omega]
  refine ⟨_, rfl, ⟨hnum, ?_, by simp only; omega, ?_⟩, rfl⟩
  · simp only
    rw [length_bfill (by rw [length_realloc]; omega), length_realloc]
  · simp only [bfill]
    rw [hnum, List.append_assoc, take_realloc (by rw [e]; simp) hle, e, List.take_left' (by simp)]
    exact ⟨_, rfl⟩

/-- The new neighbour list after an insertion. -/
structure Inserted (h : Int → Nat → Nat) (expct b f : Int) (L L' : List Neighbour) : Prop where
  good : Good h expct L'
  blocks : ∀ x : Int, (∃ nb ∈ L', nb.b = x) ↔ (∃ nb ∈ L, nb.b = x) ∨ x = b
  conns : 0 < expct → ∀ x y : Int, (∃ nb ∈ L', nb.b = x ∧ y ∈ nb.conns) ↔ (∃ nb ∈ L, nb.b = x ∧ y ∈ nb.conns) ∨ (x = b ∧ y = f)

theorem inserted_hit {A B : List Neighbour} {nb nb' : Neighbour} {b f : Int} (hg : Good h expct (A ++ nb :: B)) (hb : nb.b = b)
    (hb' : nb'.b = nb.b) (hs : SetOk h expct nb') (hc : 0 < expct → ∀ x, x ∈ nb'.conns ↔ x ∈ nb.conns ∨ x = f) :
    Inserted h expct b f (A ++ nb :: B) (A ++ nb' :: B) where
  good := by
    refine ⟨?_, ?_⟩
    · have := hg.sorted
      rw [List.pairwise_append, List.pairwise_cons] at this ⊢
      obtain ⟨h1, ⟨h2, h3⟩, h4⟩ := this
      refine ⟨h1, ⟨fun a ha => by rw [hb']; exact h2 a ha, h3⟩, fun a ha c hc => ?_⟩
      rcases List.mem_cons.1 hc with rfl | hc
      · rw [hb']; exact h4 a ha nb (by simp)
      · exact h4 a ha c (by simp [hc])
    · intro x hx
      rcases List.mem_append.1 hx with hx | hx
      · exact hg.sets x (by simp [hx])
      · rcases List.mem_cons.1 hx with rfl | hx
        · exact hs
        · exact hg.sets x (by simp [hx])
  blocks := by
    intro x
    simp only [List.mem_append, List.mem_cons, or_and_right, exists_or, exists_eq_left, hb', hb]
    constructor
    · rintro (h | h | h)
      · exact .inl (.inl h)
      · exact .inr h.symm
      · exact .inl (.inr (.inr h))
    · rintro ((h | h | h) | h)
      · exact .inl h
      · exact .inr (.inl h)
      · exact .inr (.inr h)
      · exact .inr (.inl h.symm)
  conns := by
    intro he x y
    simp only [List.mem_append, List.mem_cons, or_and_right, exists_or, exists_eq_left, hb', hb, hc he]
    constructor
    · rintro (h | ⟨rfl, h | h⟩ | h)
      · exact .inl (.inl h)
      · exact .inl (.inr (.inl ⟨rfl, h⟩))
      · exact .inr ⟨rfl, h⟩
      · exact .inl (.inr (.inr h))
    · rintro ((h | ⟨h1, h2⟩ | h) | ⟨h1, h2⟩)
      · exact .inl h
      · exact .inr (.inl ⟨h1, .inl h2⟩)
      · exact .inr (.inr h)
      · exact .inr (.inl ⟨h1.symm, .inr h2⟩)

theorem inserted_new {A B : List Neighbour} {nb' : Neighbour} {b f : Int} (hg : Good h expct (A ++ B)) (hb' : nb'.b = b)
    (hA : ∀ x ∈ A, x.b < b) (hB : ∀ x ∈ B, b < x.b) (hs : SetOk h expct nb') (hc : 0 < expct → ∀ x, x ∈ nb'.conns ↔ x = f) :
    Inserted h expct b f (A ++ B) (A ++ nb' :: B) where
  good := by
    refine ⟨?_, ?_⟩
    · have := hg.sorted
      rw [List.pairwise_append] at this
      rw [List.pairwise_append, List.pairwise_cons]
      obtain ⟨h1, h3, h4⟩ := this
      refine ⟨h1, ⟨fun a ha => by rw [hb']; exact hB a ha, h3⟩, fun a ha c hc => ?_⟩
      rcases List.mem_cons.1 hc with rfl | hc
      · rw [hb']; exact hA a ha
      · exact h4 a ha c hc
    · intro x hx
      rcases List.mem_append.1 hx with hx | hx
      · exact hg.sets x (by simp [hx])
      · rcases List.mem_cons.1 hx with rfl | hx
        · exact hs
        · exact hg.sets x (by simp [hx])
  blocks := by
    intro x
    simp only [List.mem_append, List.mem_cons, or_and_right, exists_or, exists_eq_left, hb']
    constructor
    · rintro (h | h | h)
      · exact .inl (.inl h)
      · exact .inr h.symm
      · exact .inl (.inr h)
    · rintro ((h | h) | h)
      · exact .inl h
      · exact .inr (.inr h)
      · exact .inr (.inl h.symm)
  conns := by
    intro he x y
    simp only [List.mem_append, List.mem_cons, or_and_right, exists_or, exists_eq_left, hb', hc he]
    constructor
    · rintro (h | ⟨rfl, h⟩ | h)
      · exact .inl (.inl h)
      · exact .inr ⟨rfl, h⟩
      · exact .inl (.inr h)
    · rintro ((h | h) | ⟨h1, h2⟩)
      · exact .inl h
      · exact .inr (.inr h)
      · exact .inr (.inl ⟨h1.symm, h2⟩)

theorem insertNeighbour_ok (hh : ∀ k : Int, 0 ≤ k → ∀ m, 0 < m → h k m < m) (hx : expct < 2 ^ 63) {bns : Neighbours}
    {L : List Neighbour} (H : Holds bns L) (hg : Good h expct L) (b : Int) {f : Int} (hf : 0 ≤ f) :
    ∃ r bns' L', insertNeighbour h jn b f expct bns = .ok (r, bns') ∧ 0 ≤ r ∧ Holds bns' L' ∧ Inserted h expct b f L L' := by
  have hcap := H.cap
  have hpos := H.pos
  have hnum := H.num
  have hne : ¬ (bns.neigh = [] ∨ bns.cpty = 0) := by
    rintro (h | h)
    · rw [h] at hcap; simp at hcap; omega
    · omega
  obtain ⟨i, hi, hil, hlo, hhi⟩ := search_ok H hg.sorted b
  have hens : ensureTable jn bns = .ok (1, bns) := by unfold ensureTable; rw [if_neg hne]
  unfold insertNeighbour
  rw [hens, bind_ok]
  simp only
  rw [if_pos trivial, hi, bind_ok]
  have key : (∃ A nb B, L = A ++ nb :: B ∧ A.length = i ∧ nb.b = b ∧ i < L.length ∧ L[i]? = some nb) ∨
      ((∀ x ∈ L.drop i, b < x.b) ∧ ∀ nb, L[i]? = some nb → nb.b ≠ b) := by
    rcases Nat.lt_or_ge i L.length with hi1 | hi1
    · have hgi := List.getElem?_eq_getElem hi1
      by_cases hb : L[i].b = b
      · left
        refine ⟨L.take i, L[i], L.drop (i + 1), ?_, by simp; omega, hb, hi1, hgi⟩
        rw [← List.drop_eq_getElem_cons hi1, List.take_append_drop]
      · right
        refine ⟨?_, fun nb hnb => by rw [hgi] at hnb; cases hnb; exact hb⟩
        intro x hx
        obtain ⟨k, hk, rfl⟩ := List.mem_iff_getElem.1 hx
        have hkl : i + k < L.length := by simp at hk; omega
        rw [List.getElem_drop]
        have h1 := hhi i _ (Nat.le_refl _) hgi
        rcases Nat.eq_zero_or_pos k with rfl | hk0
        · show b < L[i].b; omega
        · have := (List.pairwise_iff_getElem.1 hg.sorted) i (i + k) hi1 hkl (by omega)
          omega
    · right
      rw [List.drop_eq_nil_of_le hi1, List.getElem?_eq_none hi1]
      simp
  have hA : ∀ x ∈ L.take i, x.b < b := by
    intro x hx
    obtain ⟨k, hk, rfl⟩ := List.mem_iff_getElem.1 hx
    rw [List.getElem_take]
    have : k < L.length := by simp at hk; omega
    exact hlo k _ (by simp at hk; omega) (List.getElem?_eq_getElem this)
  rcases key with ⟨A, nb, B, e, hlt, hb, hi1, hgi⟩ | ⟨hB, hnh⟩
  · have hgn : bns.neigh[i]? = some (some nb) := by
      rw [H.get hi1]; congr 2
      rw [List.getElem?_eq_getElem hi1] at hgi
      exact Option.some.inj hgi
    have hhit : hit bns b i = .ok (some nb) := by
      unfold hit
      rw [if_pos (by omega), rd_of_getElem? hgn, bind_ok]
      simp only
      rw [if_pos hb]
    rw [hhit, bind_ok]
    simp only
    obtain ⟨r, nb', er, hr, hb', hs', hc'⟩ := insertFconn_ok hh (hg.sets nb (by rw [e]; simp)) hf
    rw [er, bind_ok]
    simp only
    obtain ⟨rest, hd⟩ := H.dat
    rw [wr_ok (by rw [hd]; simp; omega), bind_ok]
    refine ⟨r, _, A ++ nb' :: B, rfl, hr, ⟨?_, ?_, hpos, ?_⟩, ?_⟩
    · simp only
      rw [hnum]
      have := congrArg List.length e
      simp only [List.length_append, List.length_cons] at this ⊢
      omega
    · simpa using hcap
    · refine ⟨rest, ?_⟩
      simp only
      rw [hd, e, List.set_append_left _ _ (by simp [← hlt]), List.map_append, List.map_append]
      congr 1
      rw [List.set_append_right _ _ (by simp [hlt]), List.length_map, hlt, Nat.sub_self]
      rfl
    · have := inserted_hit (f := f) (by rw [← e]; exact hg) hb hb' hs' hc'
      rw [← e] at this
      exact this
  · have hhit : hit bns b i = .ok none := by
      unfold hit
      by_cases hi1 : i < bns.nneigh
      · rw [if_pos hi1, rd_of_getElem? (H.get (by omega)), bind_ok]
        simp only
        rw [if_neg (hnh _ (List.getElem?_eq_getElem (by omega)))]
      · rw [if_neg hi1]
    rw [hhit, bind_ok]
    simp only
    obtain ⟨r1, bns1, e1, hr1, H1, hc1⟩ : ∃ r1 bns1, makeRoom jn 1 bns = .ok (r1, bns1) ∧ 0 ≤ r1 ∧ Holds bns1 L ∧ L.length < bns1.cpty := by
      unfold makeRoom
      by_cases hfull : bns.nneigh = bns.cpty
      · rw [if_pos hfull, check_ok (by simpa using hpos), bind_ok]
        obtain ⟨bns', e', H', hc'⟩ := expand_holds (jn := jn) H (n := 2 * bns.cpty) (by omega)
        exact ⟨_, _, e', by omega, H', by omega⟩
      · rw [if_neg hfull]
        refine ⟨1, bns, rfl, by omega, H, ?_⟩
        obtain ⟨rest, hd⟩ := H.dat
        have := congrArg List.length hd
        simp at this
        omega
    rw [e1, bind_ok]
    simp only
    rw [if_pos hr1]
    obtain ⟨rest, hd⟩ := H1.dat
    have hrl : 0 < rest.length := by
      have := congrArg List.length hd
      simp at this
      have := H1.cap
      omega
    obtain ⟨r0, rest', rfl⟩ : ∃ r0 rest', rest = r0 :: rest' := by
      cases rest with
      | nil => simp at hrl
      | cons a l => exact ⟨a, l, rfl⟩
    obtain ⟨a2, e2, hl2, hd2⟩ : ∃ a2 : List (Option Neighbour), shiftUp bns1 i = .ok a2 ∧
        a2.length = bns1.cpty ∧ ∃ z, a2 = (L.take i).map some ++ z :: ((L.drop i).map some ++ rest') := by
      have hn1 := H1.num
      have hcp := H1.cap
      unfold shiftUp
      by_cases hi1 : i < bns1.nneigh
      · rw [if_pos hi1]
        have hlen : bns1.neigh.length = L.length + 1 + rest'.length := by rw [hd]; simp; omega
        unfold moveUp
        rw [if_pos (by omega)]
        refine ⟨_, rfl, by simp; omega, ?_⟩
        have hti : (L.take i).length = i := by simp; omega
        refine ⟨some L[i], ?_⟩
        have q1 : bns1.neigh.take (i + 1) = (L.take i).map some ++ [some L[i]] := by
          rw [hd, List.take_append_of_le_length (by simp; omega), ← List.map_take, List.take_succ_eq_append_getElem (by omega), List.map_append]
          rfl
        have q2 : (bns1.neigh.drop i).take (bns1.nneigh - i) = (L.drop i).map some := by
          rw [hd, List.drop_append_of_le_length (by simp; omega), ← List.map_drop, List.take_left' (by simp; omega)]
        have q3 : bns1.neigh.drop (i + 1 + (bns1.nneigh - i)) = rest' := by
          rw [show i + 1 + (bns1.nneigh - i) = L.length + 1 by omega, hd, show L.map some ++ r0 :: rest' = (L.map some ++ [r0]) ++ rest' by simp]
          exact List.drop_left' (by simp)
        rw [q1, q2, q3]
        simp
      · rw [if_neg hi1]
        obtain rfl : i = L.length := by omega
        refine ⟨_, rfl, hcp, r0, ?_⟩
        rw [List.take_length, List.drop_length, hd]; simp
    rw [e2, bind_ok]
    obtain ⟨ha1, ha2⟩ := allocate_ok (h := h) hx
    obtain ⟨r, nb', er, hr, hb', hs', hc'⟩ := insertFconn_ok hh ha1 hf
    rw [er, bind_ok]
    simp only
    obtain ⟨z, hd2⟩ := hd2
    have hti : (L.take i).length = i := by simp; omega
    rw [wr_ok (by rw [hd2]; simp; omega), bind_ok]
    refine ⟨r, _, L.take i ++ { nb' with b := b } :: L.drop i, rfl, hr, ⟨?_, ?_, ?_, ?_⟩, ?_⟩
    · simp only [List.length_append, List.length_cons, H1.num, hti, List.length_drop]; omega
    · simpa using hl2
    · simp only; have := H1.pos; omega
    · refine ⟨rest', ?_⟩
      simp only
      rw [hd2, List.set_append_right _ _ (by rw [List.length_map]; omega), List.length_map, hti, Nat.sub_self, List.map_append]
      simp
    · have := inserted_new (h := h) (expct := expct) (A := L.take i) (B := L.drop i) (nb' := { nb' with b := b }) (b := b) (f := f)
        (by rw [List.take_append_drop]; exact hg) rfl hA hB ⟨hs'.some, hs'.none⟩
        (fun he x => by
          show x ∈ Neighbour.conns nb' ↔ x = f
          rw [hc' he x, ha2]; simp)
      rw [List.take_append_drop] at this
      exact this

end Opm.CoarseConn
