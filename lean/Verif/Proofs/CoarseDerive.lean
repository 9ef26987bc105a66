import Verif.Proofs.CoarseConn
import Verif.Proofs.PartitionBasic
/-! # Lemmas about coarse grid topologies: collecting the fine faces -/

namespace Opm.CoarseConn
open Opm

variable {h : Int → Nat → Nat} {jn : Nat → Option Neighbour} {expct : Int} {nc nf : Nat} {p neighbours : List Int}

/-- The blocks under which a fine face is stored. -/
def key (p neighbours : List Int) (f : Nat) : Int × Int := inOut (side p neighbours f 0) (side p neighbours f 1)

theorem side_ge (hp : ∀ x ∈ p, 0 ≤ x) (f k : Nat) : -1 ≤ side p neighbours f k := by
  unfold side
  simp only
  split
  · rcases Nat.lt_or_ge (neighbours.getD (2 * f + k) (-1)).toNat p.length with h | h
    · have := hp _ (List.getElem_mem h)
      rw [List.getD_eq_getElem?_getD, List.getElem?_eq_getElem h, Option.getD_some]; omega
    · rw [List.getD_eq_getElem?_getD, List.getElem?_eq_none h, Option.getD_none]
  · exact Int.le_refl _

theorem Ok.get (hk : Ok nc nf p neighbours) {f k : Nat} (hf : f < nf) (h2 : k < 2) :
    neighbours[2 * f + k]? = some (neighbours.getD (2 * f + k) (-1)) ∧ blockOf p (neighbours.getD (2 * f + k) (-1)) = .ok (side p neighbours f k) ∧
      (0 ≤ neighbours.getD (2 * f + k) (-1) → 0 ≤ side p neighbours f k ∧ side p neighbours f k ∈ p) := by
  have hl : 2 * f + k < neighbours.length := by have := hk.nlen; omega
  have hg := List.getElem?_eq_getElem hl
  have hd : neighbours.getD (2 * f + k) (-1) = neighbours[2 * f + k] := by
    rw [List.getD_eq_getElem?_getD, hg, Option.getD_some]
  have hlt := hk.lt _ (List.getElem_mem hl)
  rw [← hd] at hlt hg
  unfold blockOf side
  simp only
  generalize neighbours.getD (2 * f + k) (-1) = c at *
  refine ⟨hg, ?_⟩
  by_cases hc : 0 ≤ c
  · obtain ⟨n, rfl⟩ := Int.eq_ofNat_of_zero_le hc
    have hn : n < p.length := by rw [hk.plen]; omega
    have hpn := List.getElem?_eq_getElem hn
    rw [if_pos hc, if_pos hc, Int.toNat_natCast, rdI_natCast, rd_of_getElem? hpn, List.getD_eq_getElem?_getD, hpn, Option.getD_some]
    exact ⟨rfl, fun _ => ⟨hk.pos _ (List.getElem_mem hn), List.getElem_mem hn⟩⟩
  · rw [if_neg hc, if_neg (by omega)]
    exact ⟨rfl, fun h => absurd h hc⟩

/-- The inner block of a face between different blocks is a block, the outer one a larger block or the outside. -/
theorem Ok.key (hk : Ok nc nf p neighbours) {f : Nat} (hf : f < nf) (hne : (key p neighbours f).1 ≠ (key p neighbours f).2) :
    0 ≤ (key p neighbours f).1 ∧ (key p neighbours f).1 ∈ p ∧
      ((key p neighbours f).2 = -1 ∨ ((key p neighbours f).1 < (key p neighbours f).2 ∧ (key p neighbours f).2 ∈ p)) := by
  obtain ⟨_, _, h0⟩ := hk.get hf (k := 0) (by omega)
  obtain ⟨_, _, h1⟩ := hk.get hf (k := 1) (by omega)
  have hin := hk.inside f hf
  have g0 := side_ge (neighbours := neighbours) hk.pos f 0
  have g1 := side_ge (neighbours := neighbours) hk.pos f 1
  have p0 : 0 ≤ side p neighbours f 0 → side p neighbours f 0 ∈ p := by
    intro h
    refine (h0 ?_).2
    by_contra hc
    unfold side at h
    simp only [if_neg hc] at h
    omega
  have p1 : 0 ≤ side p neighbours f 1 → side p neighbours f 1 ∈ p := by
    intro h
    refine (h1 ?_).2
    by_contra hc
    unfold side at h
    simp only [if_neg hc] at h
    omega
  rw [Nat.add_zero] at h0
  have hor : 0 ≤ side p neighbours f 0 ∨ 0 ≤ side p neighbours f 1 := by
    rcases hin with h | h
    · exact .inl (h0 h).1
    · exact .inr (h1 h).1
  unfold CoarseConn.key inOut at hne ⊢
  generalize side p neighbours f 0 = a at *
  generalize side p neighbours f 1 = b at *
  split at hne
  · rename_i hab
    rw [if_pos hab]
    simp only at hne ⊢
    rcases Int.lt_trichotomy a b with hlt | rfl | hlt
    · rw [show -(max (-a) (-b)) = a by omega, show max a b = b by omega]
      exact ⟨hab.1, p0 hab.1, .inr ⟨hlt, p1 hab.2⟩⟩
    · omega
    · rw [show -(max (-a) (-b)) = b by omega, show max a b = a by omega]
      exact ⟨hab.2, p1 hab.2, .inr ⟨hlt, p0 hab.1⟩⟩
  · rename_i hab
    rw [if_neg hab]
    split at hne
    · rename_i ha
      rw [if_pos ha]
      exact ⟨ha, p0 ha, .inl (by simp only; omega)⟩
    · rename_i ha
      rw [if_neg ha]
      exact ⟨by simp only; omega, p1 (by omega), .inl (by simp only; omega)⟩

theorem Ok.sides (hk : Ok nc nf p neighbours) {f : Nat} (hf : f < nf) : 0 ≤ side p neighbours f 0 ∨ 0 ≤ side p neighbours f 1 := by
  obtain ⟨_, _, h0⟩ := hk.get hf (k := 0) (by omega)
  obtain ⟨_, _, h1⟩ := hk.get hf (k := 1) (by omega)
  rcases hk.inside f hf with h | h
  · exact .inl (h0 h).1
  · exact .inr (h1 h).1

/-- A face lies between two blocks if it is stored under them. -/
theorem Ok.between_iff (hk : Ok nc nf p neighbours) {f : Nat} (hf : f < nf) {a b : Int} (ha : 0 ≤ a) (hab : b = -1 ∨ a < b) :
    Between p neighbours a b f ↔ CoarseConn.key p neighbours f = (a, b) := by
  have hs := hk.sides hf
  have g0 := side_ge (neighbours := neighbours) hk.pos f 0
  have g1 := side_ge (neighbours := neighbours) hk.pos f 1
  unfold Between CoarseConn.key inOut
  generalize side p neighbours f 0 = x at *
  generalize side p neighbours f 1 = y at *
  by_cases hxy : x ≥ 0 ∧ y ≥ 0
  · rw [if_pos hxy, Prod.mk.injEq]; omega
  · rw [if_neg hxy]
    by_cases hx : x ≥ 0
    · rw [if_pos hx, Prod.mk.injEq]; omega
    · rw [if_neg hx, Prod.mk.injEq]; omega

/-- A face between different blocks is stored under them, in one order. -/
theorem Ok.between_key (hk : Ok nc nf p neighbours) {f : Nat} (hf : f < nf) {a b : Int} (hb : Between p neighbours a b f) :
    CoarseConn.key p neighbours f = (a, b) ∨ CoarseConn.key p neighbours f = (b, a) := by
  have hs := hk.sides hf
  have g0 := side_ge (neighbours := neighbours) hk.pos f 0
  have g1 := side_ge (neighbours := neighbours) hk.pos f 1
  unfold Between at hb
  unfold CoarseConn.key inOut
  generalize side p neighbours f 0 = x at *
  generalize side p neighbours f 1 = y at *
  by_cases hxy : x ≥ 0 ∧ y ≥ 0
  · rw [if_pos hxy, Prod.mk.injEq, Prod.mk.injEq]; omega
  · rw [if_neg hxy]
    by_cases hx : x ≥ 0
    · rw [if_pos hx, Prod.mk.injEq, Prod.mk.injEq]; omega
    · rw [if_neg hx, Prod.mk.injEq, Prod.mk.injEq]; omega

theorem countBlocks_ok (p : List Int) :
    ∃ n : Nat, countBlocks p.length p = .ok (n : Int) ∧ ∀ b : Nat, b < n ↔ ∃ x ∈ p, (b : Int) ≤ x := by
  obtain ⟨t, ht, h1, h2, h3⟩ := loop_inv (n := p.length) (s := (-1 : Int))
    (f := fun i m => do
      let x ← rd p i
      .ok (max m x))
    (fun k m => -1 ≤ m ∧ (∀ x ∈ p.take k, x ≤ m) ∧ (m = -1 ∨ m ∈ p.take k))
    ⟨Int.le_refl _, by simp, .inl rfl⟩
    (by
      rintro i m hi ⟨h1, h2, h3⟩
      have hg := List.getElem?_eq_getElem hi
      refine ⟨max m p[i], by rw [rd_of_getElem? hg, bind_ok], by omega, ?_, ?_⟩
      · intro x hx
        rw [List.take_add_one, hg, List.mem_append] at hx
        rcases hx with hx | hx
        · have := h2 x hx; omega
        · simp at hx; omega
      · rw [List.take_add_one, hg, List.mem_append]
        rcases Int.le_total p[i] m with h | h
        · rw [max_eq_left h]
          rcases h3 with h3 | h3
          · exact .inl h3
          · exact .inr (.inl h3)
        · rw [max_eq_right h]
          exact .inr (.inr (by simp)))
  rw [List.take_length] at h2 h3
  refine ⟨(t + 1).toNat, ?_, ?_⟩
  · unfold countBlocks
    rw [ht, bind_ok, Int.toNat_of_nonneg (by omega)]
  · intro b
    constructor
    · intro hb
      rcases h3 with h3 | h3
      · omega
      · exact ⟨t, h3, by omega⟩
    · rintro ⟨x, hx, hbx⟩
      have := h2 x hx
      omega

/-- `x` stores the list `L` (a `NULL` pointer stores the empty list). -/
inductive Slot : Option Neighbours → List Neighbour → Prop
  | null : Slot none []
  | list {bns L} : Holds bns L → Slot (some bns) L

/-- The list of block `a` after `k` fine faces. -/
structure BlockOk (h : Int → Nat → Nat) (expct : Int) (p neighbours : List Int) (k : Nat) (a : Nat) (L : List Neighbour) : Prop where
  good : Good h expct L
  blocks : ∀ y : Int, (∃ nb ∈ L, nb.b = y) ↔ ∃ f, f < k ∧ key p neighbours f = ((a : Int), y) ∧ (a : Int) ≠ y
  conns : 0 < expct → ∀ y z : Int, (∃ nb ∈ L, nb.b = y ∧ z ∈ nb.conns) ↔
    ∃ f : Nat, f < k ∧ z = f ∧ key p neighbours f = ((a : Int), y) ∧ (a : Int) ≠ y

theorem BlockOk.skip {k a : Nat} {L : List Neighbour} (hb : BlockOk h expct p neighbours k a L)
    (hs : ∀ y : Int, key p neighbours k = ((a : Int), y) → (a : Int) = y) : BlockOk h expct p neighbours (k + 1) a L where
  good := hb.good
  blocks := by
    intro y
    rw [hb.blocks y]
    constructor
    · rintro ⟨f, hf, h1, h2⟩; exact ⟨f, by omega, h1, h2⟩
    · rintro ⟨f, hf, h1, h2⟩
      rcases Nat.lt_or_ge f k with h | h
      · exact ⟨f, h, h1, h2⟩
      · obtain rfl : f = k := by omega
        exact absurd (hs y h1) h2
  conns := by
    intro he y z
    rw [hb.conns he y z]
    constructor
    · rintro ⟨f, hf, h0, h1, h2⟩; exact ⟨f, by omega, h0, h1, h2⟩
    · rintro ⟨f, hf, h0, h1, h2⟩
      rcases Nat.lt_or_ge f k with h | h
      · exact ⟨f, h, h0, h1, h2⟩
      · obtain rfl : f = k := by omega
        exact absurd (hs y h1) h2

theorem BlockOk.step {k a : Nat} {b : Int} {L L' : List Neighbour} (hb : BlockOk h expct p neighbours k a L)
    (hk : key p neighbours k = ((a : Int), b)) (hne : (a : Int) ≠ b) (hi : Inserted h expct b (k : Int) L L') :
    BlockOk h expct p neighbours (k + 1) a L' where
  good := hi.good
  blocks := by
    intro y
    rw [hi.blocks y, hb.blocks y]
    constructor
    · rintro (⟨f, hf, h1, h2⟩ | rfl)
      · exact ⟨f, by omega, h1, h2⟩
      · exact ⟨k, by omega, hk, hne⟩
    · rintro ⟨f, hf, h1, h2⟩
      rcases Nat.lt_or_ge f k with h | h
      · exact .inl ⟨f, h, h1, h2⟩
      · obtain rfl : f = k := by omega
        rw [hk] at h1; cases h1; exact .inr rfl
  conns := by
    intro he y z
    rw [hi.conns he y z, hb.conns he y z]
    constructor
    · rintro (⟨f, hf, h0, h1, h2⟩ | ⟨rfl, rfl⟩)
      · exact ⟨f, by omega, h0, h1, h2⟩
      · exact ⟨k, by omega, rfl, hk, hne⟩
    · rintro ⟨f, hf, h0, h1, h2⟩
      rcases Nat.lt_or_ge f k with h | h
      · exact .inl ⟨f, h, h0, h1, h2⟩
      · obtain rfl : f = k := by omega
        rw [hk] at h1; cases h1; exact .inr ⟨rfl, h0⟩

theorem ensureBlock_ok {x : Option Neighbours} {L : List Neighbour} (H : Slot x L) :
    ∃ bns, ensureBlock jn x = .ok bns ∧ Holds bns L := by
  cases H with
  | list H => exact ⟨_, rfl, H⟩
  | null =>
    refine ⟨{ nneigh := 0, cpty := 1, neigh := [none] }, ?_, ⟨rfl, rfl, Nat.le_refl _, ⟨[none], rfl⟩⟩⟩
    rfl

/-- The table of all blocks after `k` fine faces. -/
def TableOk (h : Int → Nat → Nat) (expct : Int) (p neighbours : List Int) (nblk k : Nat) (tab : List (Option Neighbours)) : Prop :=
  tab.length = nblk ∧ ∀ a : Nat, a < nblk → ∃ x L, tab[a]? = some x ∧ Slot x L ∧ BlockOk h expct p neighbours k a L

theorem deriveStep_ok (hh : ∀ k : Int, 0 ≤ k → ∀ m, 0 < m → h k m < m) (hx : expct < 2 ^ 63) (hk : Ok nc nf p neighbours)
    {nblk : Nat} (hnb : ∀ b : Nat, b < nblk ↔ ∃ x ∈ p, (b : Int) ≤ x) {f : Nat} (hf : f < nf)
    {s : Int × List (Option Neighbours)} (h0 : 0 ≤ s.1) (ht : TableOk h expct p neighbours nblk f s.2) :
    ∃ s', deriveStep h jn expct p neighbours f s = .ok s' ∧ 0 ≤ s'.1 ∧ TableOk h expct p neighbours nblk (f + 1) s'.2 := by
  obtain ⟨g0, q0, _⟩ := hk.get hf (k := 0) (by omega)
  obtain ⟨g1, q1, _⟩ := hk.get hf (k := 1) (by omega)
  unfold deriveStep
  rw [rd_of_getElem? g0, bind_ok, q0, bind_ok, rd_of_getElem? g1, bind_ok, q1, bind_ok, check_ok (by simpa using hk.sides hf), bind_ok]
  simp only
  rw [show inOut (side p neighbours f 0) (side p neighbours f 1) = key p neighbours f from rfl]
  by_cases hne : (key p neighbours f).1 ≠ (key p neighbours f).2
  · rw [if_pos hne]
    obtain ⟨ha, hap, hb⟩ := hk.key hf hne
    obtain ⟨a, hae⟩ := Int.eq_ofNat_of_zero_le ha
    have hal : a < nblk := (hnb a).2 ⟨_, hap, by omega⟩
    obtain ⟨hlen, htab⟩ := ht
    obtain ⟨x, L, hxa, hsl, hB⟩ := htab a hal
    obtain ⟨bns, eb, Hb⟩ := ensureBlock_ok (jn := jn) hsl
    obtain ⟨r, bns', L', er, hr, H', hi⟩ := insertNeighbour_ok (jn := jn) hh hx Hb hB.good (key p neighbours f).2 (f := (f : Int)) (by omega)
    rw [rdI_of_getElem? (n := a) hae hxa, bind_ok, eb, bind_ok, er, bind_ok]
    simp only
    rw [wrI_ok (n := a) hae (by omega), bind_ok]
    refine ⟨_, rfl, hr, by simpa using hlen, ?_⟩
    intro c hc
    by_cases hca : a = c
    · subst hca
      refine ⟨some bns', L', by simp only; rw [List.getElem?_set_self (by omega)], .list H', ?_⟩
      have hkey : key p neighbours f = ((a : Int), (key p neighbours f).2) := by
        rw [← hae]
      exact hB.step hkey (by rw [← hae]; exact hne) hi
    · obtain ⟨x', L2, e1, e2, e3⟩ := htab c hc
      refine ⟨x', L2, by simp only; rw [List.getElem?_set_ne hca]; exact e1, e2, e3.skip ?_⟩
      intro y hy
      rw [hy] at hae
      simp only at hae
      omega
  · rw [if_neg hne]
    refine ⟨s, rfl, h0, ht.1, ?_⟩
    intro c hc
    obtain ⟨x', L2, e1, e2, e3⟩ := ht.2 c hc
    refine ⟨x', L2, e1, e2, e3.skip ?_⟩
    intro y hy
    rw [hy] at hne
    simp only [ne_eq, not_not] at hne
    exact hne

theorem deriveBlockFaces_ok (hh : ∀ k : Int, 0 ≤ k → ∀ m, 0 < m → h k m < m) (hx : expct < 2 ^ 63) (hk : Ok nc nf p neighbours)
    {nblk : Nat} (hnb : ∀ b : Nat, b < nblk ↔ ∃ x ∈ p, (b : Int) ≤ x) :
    ∃ (tab : List (Option Neighbours)) (LL : List (List Neighbour)),
      deriveBlockFaces h jn nf nblk expct p neighbours (List.replicate nblk none) = .ok ((LL.flatten.length : Int), tab) ∧
      LL.length = nblk ∧ tab.length = nblk ∧
      ∀ a : Nat, a < nblk → ∃ x L, tab[a]? = some x ∧ LL[a]? = some L ∧ Slot x L ∧ BlockOk h expct p neighbours nf a L := by
  obtain ⟨s, es, h0, hlen, htab⟩ := loop_inv (n := nf) (s := ((0 : Int), List.replicate nblk (none : Option Neighbours)))
    (f := fun f (s : Int × List (Option Neighbours)) => if 0 ≤ s.1 then deriveStep h jn expct p neighbours f s else .ok s)
    (fun k s => 0 ≤ s.1 ∧ TableOk h expct p neighbours nblk k s.2)
    ⟨Int.le_refl _, by simp, by
      intro a ha
      refine ⟨none, [], by simp [ha], .null, ⟨⟨by simp, by simp⟩, ?_, ?_⟩⟩
      · intro y; simp
      · intro _ y z; simp⟩
    (by
      rintro f s hf ⟨h0, ht⟩
      rw [if_pos h0]
      exact deriveStep_ok hh hx hk hnb hf h0 ht)
  classical
  let LL := (List.range nblk).map (fun a => if ha : a < nblk then (htab a ha).choose_spec.choose else [])
  have hLL : ∀ a : Nat, a < nblk → ∃ x L, s.2[a]? = some x ∧ LL[a]? = some L ∧ Slot x L ∧ BlockOk h expct p neighbours nf a L := by
    intro a ha
    obtain ⟨e1, e2, e3⟩ := (htab a ha).choose_spec.choose_spec
    exact ⟨_, _, e1, by simp [LL, ha], e2, e3⟩
  have hLl : LL.length = nblk := by simp [LL]
  clear_value LL
  refine ⟨s.2, LL, ?_, hLl, hlen, hLL⟩
  unfold deriveBlockFaces
  rw [es, bind_ok, if_pos h0]
  obtain ⟨n, en, hn⟩ := loop_inv (n := nblk) (s := (0 : Int))
    (f := fun b (n : Int) => do
      let x ← rd s.2 b
      .ok (n + numNeigh x))
    (fun k n => n = ((LL.take k).flatten.length : Int)) (by simp)
    (by
      rintro b n hb rfl
      obtain ⟨x, L, e1, e2, e3, _⟩ := hLL b hb
      refine ⟨_, by rw [rd_of_getElem? e1, bind_ok], ?_⟩
      rw [List.take_add_one, e2, List.flatten_append, List.length_append]
      cases e3 with
      | null => simp [numNeigh]
      | list H => simp [numNeigh, H.num])
  rw [en, bind_ok, hn, ← hLl, List.take_length]

end Opm.CoarseConn
