import Verif.Proofs.PartitionSplit2
/-! # Cell-to-cell connectivity built by `partition_create_c2c` -/

namespace Opm.Partition
open Opm Opm.Graph Opm.Bucket

/-- The two entries made for neighbour pair `i`. -/
def pairItems (neigh : List Int) (i : Nat) : List (Nat × Nat) :=
  let c1 := neigh.getD (2 * i) (-1)
  let c2 := neigh.getD (2 * i + 1) (-1)
  if c1 ≥ 0 ∧ c2 ≥ 0 then [(c1.toNat, c2.toNat), (c2.toNat, c1.toNat)] else []

/-- Entries of the first `k` pairs. -/
def nItems (neigh : List Int) (k : Nat) : List (Nat × Nat) := (List.range k).flatMap (pairItems neigh)

/-- The self entries of the first `k` cells. -/
def selfItems (k : Nat) : List (Nat × Nat) := (List.range k).map (fun i => (i, i))

/-- All entries in the order of insertion. -/
def allItems (nc nneigh : Nat) (neigh : List Int) : List (Nat × Nat) := selfItems nc ++ nItems neigh nneigh

theorem nItems_succ (neigh : List Int) (k : Nat) : nItems neigh (k + 1) = nItems neigh k ++ pairItems neigh k := by
  simp [nItems, List.range_succ, List.flatMap_append]

theorem selfItems_succ (k : Nat) : selfItems (k + 1) = selfItems k ++ [(k, k)] := by
  simp [selfItems, List.range_succ]

theorem rowOf_selfItems {k r : Nat} (h : r < k) : rowOf (selfItems k) r = [r] := by
  induction k with
  | zero => omega
  | succ k ih =>
    rw [selfItems_succ]
    by_cases hr : r = k
    · subst hr
      rw [rowOf_snoc_self, rowOf_eq_nil, List.nil_append]
      intro p hp
      simp only [selfItems, List.mem_map, List.mem_range] at hp
      obtain ⟨a, ha, rfl⟩ := hp
      simp only; omega
    · rw [rowOf_snoc_ne _ _ (Ne.symm hr)]
      exact ih (by omega)

theorem rowOf_allItems {nc nneigh r : Nat} {neigh : List Int} (h : r < nc) :
    rowOf (allItems nc nneigh neigh) r = r :: rowOf (nItems neigh nneigh) r := by
  rw [allItems, rowOf_append, rowOf_selfItems h]; rfl

/-- What is assumed about the neighbour list. -/
structure Neigh (nc nneigh : Nat) (neigh : List Int) : Prop where
  len : 2 * nneigh ≤ neigh.length
  lt : ∀ x ∈ neigh, x < nc
  ne : ∀ (i : Nat) (a b : Int), i < nneigh → neigh[2 * i]? = some a → neigh[2 * i + 1]? = some b → 0 ≤ a → a ≠ b

variable {nc nneigh : Nat} {neigh : List Int}

theorem Neigh.get (h : Neigh nc nneigh neigh) {i : Nat} (hi : i < nneigh) :
    neigh[2 * i]? = some (neigh.getD (2 * i) (-1)) ∧ neigh[2 * i + 1]? = some (neigh.getD (2 * i + 1) (-1)) := by
  have := h.len
  have h1 : 2 * i < neigh.length := by omega
  have h2 : 2 * i + 1 < neigh.length := by omega
  constructor
  · simp [List.getD_eq_getElem?_getD, h1]
  · simp [List.getD_eq_getElem?_getD, h2]

theorem Neigh.get_lt (h : Neigh nc nneigh neigh) {i : Nat} (hi : i < nneigh) :
    neigh.getD (2 * i) (-1) < nc ∧ neigh.getD (2 * i + 1) (-1) < nc :=
  ⟨h.lt _ (List.mem_of_getElem? (h.get hi).1), h.lt _ (List.mem_of_getElem? (h.get hi).2)⟩

theorem mem_pairItems {i c d : Nat} (hn : Neigh nc nneigh neigh) (hi : i < nneigh) : (c, d) ∈ pairItems neigh i ↔
    (neigh[2 * i]? = some (c : Int) ∧ neigh[2 * i + 1]? = some (d : Int)) ∨
    (neigh[2 * i]? = some (d : Int) ∧ neigh[2 * i + 1]? = some (c : Int)) := by
  obtain ⟨h1, h2⟩ := hn.get hi
  rw [h1, h2]
  unfold pairItems
  generalize neigh.getD (2 * i) (-1) = a
  generalize neigh.getD (2 * i + 1) (-1) = b
  simp only [Option.some.injEq]
  split
  · simp only [List.mem_cons, Prod.mk.injEq, List.not_mem_nil, or_false]; omega
  · simp; omega

/-- Two cells are neighbours. -/
def Adjacent (nneigh : Nat) (neigh : List Int) (c d : Nat) : Prop :=
  ∃ i : Nat, i < nneigh ∧ ((neigh[2 * i]? = some (c : Int) ∧ neigh[2 * i + 1]? = some (d : Int)) ∨
    (neigh[2 * i]? = some (d : Int) ∧ neigh[2 * i + 1]? = some (c : Int)))

theorem mem_row_nItems (hn : Neigh nc nneigh neigh) {c d : Nat} :
    d ∈ rowOf (nItems neigh nneigh) c ↔ Adjacent nneigh neigh c d := by
  rw [mem_rowOf, nItems, List.mem_flatMap]
  constructor
  · rintro ⟨i, hi, h⟩
    have hi := List.mem_range.1 hi
    exact ⟨i, hi, (mem_pairItems hn hi).1 h⟩
  · rintro ⟨i, hi, h⟩
    exact ⟨i, List.mem_range.2 hi, (mem_pairItems hn hi).2 h⟩

theorem Adjacent.symm {c d : Nat} (h : Adjacent nneigh neigh c d) : Adjacent nneigh neigh d c := by
  obtain ⟨i, hi, h⟩ := h
  exact ⟨i, hi, h.symm⟩

theorem Adjacent.ne (hn : Neigh nc nneigh neigh) {c d : Nat} (h : Adjacent nneigh neigh c d) : c ≠ d := by
  obtain ⟨i, hi, h⟩ := h
  rintro rfl
  rcases h with ⟨h1, h2⟩ | ⟨h1, h2⟩ <;> exact hn.ne i _ _ hi h1 h2 (by omega) rfl

theorem Adjacent.lt (hn : Neigh nc nneigh neigh) {c d : Nat} (h : Adjacent nneigh neigh c d) : d < nc := by
  obtain ⟨i, hi, h⟩ := h
  rcases h with ⟨h1, h2⟩ | ⟨h1, h2⟩
  · have := hn.lt _ (List.mem_of_getElem? h2); omega
  · have := hn.lt _ (List.mem_of_getElem? h1); omega

theorem countC2C_ok (hn : Neigh nc nneigh neigh) {ia : List Nat} (h : Counted nc ([] : List (Nat × Nat)) ia) :
    ∃ ia', countC2C nneigh neigh ia = .ok ia' ∧ Counted nc (nItems neigh nneigh) ia' ∧ ia'.length = ia.length := by
  unfold countC2C
  refine loop_inv (fun k t => Counted nc (nItems neigh k) t ∧ t.length = ia.length) ⟨h, rfl⟩ ?_
  rintro i t hi ⟨hC, hl⟩
  obtain ⟨h1, h2⟩ := hn.get hi
  obtain ⟨l1, l2⟩ := hn.get_lt hi
  rw [rd_of_getElem? h1, bind_ok, rd_of_getElem? h2, bind_ok, nItems_succ]
  unfold pairItems
  simp only
  generalize neigh.getD (2 * i) (-1) = a at *
  generalize neigh.getD (2 * i + 1) (-1) = b at *
  split
  · rename_i hp
    obtain ⟨x, rfl⟩ := Int.eq_ofNat_of_zero_le hp.1
    obtain ⟨y, rfl⟩ := Int.eq_ofNat_of_zero_le hp.2
    obtain ⟨t1, e1, hC1, hl1⟩ := bump_counted (r := x) hC y (by omega)
    obtain ⟨t2, e2, hC2, hl2⟩ := bump_counted (r := y) hC1 x (by omega)
    refine ⟨t2, ?_, ?_, by omega⟩
    · rw [show ((x : Int) + 1).toNat = x + 1 by omega, show ((y : Int) + 1).toNat = y + 1 by omega, e1, bind_ok, e2]
    · simpa using hC2
  · exact ⟨t, rfl, by simpa using hC, hl⟩

theorem accumulateSelf_ok {ia : List Nat} (h : Counted nc (nItems neigh nneigh) ia) :
    ∃ ia', accumulateSelf nc ia = .ok ia' ∧ ia'.length = ia.length ∧
      ia'[0]? = some (start (allItems nc nneigh neigh) nc) ∧
      ∀ r : Nat, r < nc → ia'[r + 1]? = some (start (allItems nc nneigh neigh) r) := by
  have hil := h.len
  obtain ⟨t, ht, hl, h0, h1, h2⟩ := loop_inv (n := nc) (s := ia)
    (f := fun k ia => do
      let ia ← bump ia (k + 1)
      let a0 ← rd ia 0
      let x ← rd ia (k + 1)
      let ia ← wr ia 0 (a0 + x)
      let a0 ← rd ia 0
      let x ← rd ia (k + 1)
      wr ia (k + 1) (a0 - x))
    (fun k t => t.length = ia.length ∧ t[0]? = some (start (allItems nc nneigh neigh) k) ∧
      (∀ r : Nat, r < k → t[r + 1]? = some (start (allItems nc nneigh neigh) r)) ∧
      (∀ r : Nat, k ≤ r → r < nc → t[r + 1]? = some (rowOf (nItems neigh nneigh) r).length))
    ⟨rfl, h.zero, by intro r hr; omega, fun r _ hr => h.cnt r hr⟩
    (by
      rintro k t hk ⟨hl, h0, h1, h2⟩
      have hx := h2 k (Nat.le_refl _) hk
      have hb : bump t (k + 1) = .ok (t.set (k + 1) ((rowOf (nItems neigh nneigh) k).length + 1)) := by
        unfold bump
        rw [rd_of_getElem? hx, bind_ok, wr_ok (by omega)]
      have g0 : (t.set (k + 1) ((rowOf (nItems neigh nneigh) k).length + 1))[0]? = some (start (allItems nc nneigh neigh) k) := by
        rw [List.getElem?_set_ne (by omega)]; exact h0
      have gk : (t.set (k + 1) ((rowOf (nItems neigh nneigh) k).length + 1))[k + 1]? = some ((rowOf (nItems neigh nneigh) k).length + 1) := by
        rw [List.getElem?_set_self (by omega)]
      have hs : start (allItems nc nneigh neigh) (k + 1) =
          start (allItems nc nneigh neigh) k + ((rowOf (nItems neigh nneigh) k).length + 1) := by
        simp only [start, rowOf_allItems hk, List.length_cons]
      refine ⟨((t.set (k + 1) ((rowOf (nItems neigh nneigh) k).length + 1)).set 0
        (start (allItems nc nneigh neigh) (k + 1))).set (k + 1) (start (allItems nc nneigh neigh) k), ?_, by simpa using hl, ?_, ?_, ?_⟩
      · rw [hb, bind_ok, rd_of_getElem? g0, bind_ok, rd_of_getElem? gk, bind_ok, wr_ok (by simp; omega), bind_ok, ← hs,
          rd_of_getElem? (by rw [List.getElem?_set_self (by simp; omega)]), bind_ok,
          rd_of_getElem? (by rw [List.getElem?_set_ne (by omega)]; exact gk), bind_ok, wr_ok (by simp; omega)]
        congr 2; omega
      · rw [List.getElem?_set_ne (by omega), List.getElem?_set_self (by simp; omega)]
      · intro r hr
        by_cases hrk : r = k
        · subst hrk
          rw [List.getElem?_set_self (by simp; omega)]
        · rw [List.getElem?_set_ne (by omega), List.getElem?_set_ne (by omega), List.getElem?_set_ne (by omega)]
          exact h1 r (by omega)
      · intro r hr hrn
        rw [List.getElem?_set_ne (by omega), List.getElem?_set_ne (by omega), List.getElem?_set_ne (by omega)]
        exact h2 r (by omega) hrn)
  exact ⟨t, ht, hl, h0, h1⟩

theorem allItems_key (hn : Neigh nc nneigh neigh) : ∀ p ∈ allItems nc nneigh neigh, p.1 < nc := by
  rintro ⟨c, d⟩ hp
  rw [allItems, List.mem_append] at hp
  rcases hp with hp | hp
  · simp only [selfItems, List.mem_map, List.mem_range, Prod.mk.injEq] at hp
    omega
  · exact ((mem_row_nItems hn).1 (mem_rowOf.2 hp)).symm.lt hn

/-- `createC2C` stores the rows, but leaves the total in `pc2c[0]`. -/
theorem createC2C_ok (hn : Neigh nc nneigh neigh) (h0 : 0 < nc) (h1 : 0 < nneigh) :
    ∃ pc2c c2c, createC2C nc nneigh neigh = .ok (pc2c, c2c) ∧ pc2c.length = nc + 1 ∧
      pc2c[0]? = some (start (allItems nc nneigh neigh) nc) ∧
      (∀ c : Nat, c < nc → pc2c[c + 1]? = some (start (allItems nc nneigh neigh) (c + 1))) ∧
      (∀ c k x : Nat, c < nc → (rowOf (allItems nc nneigh neigh) c)[k]? = some x →
        c2c[start (allItems nc nneigh neigh) c + k]? = some x) := by
  obtain ⟨ia1, e1, hC1, hl1⟩ := countC2C_ok hn (counted_fill nc ((List.replicate (nc + 1) 0).drop (nc + 1)))
  obtain ⟨ia2, e2, hl2, hz2, hs2⟩ := accumulateSelf_ok hC1
  have hlen2 : ia2.length = nc + 1 := by
    rw [hl2, hl1]; simp
  set A := allItems nc nneigh neigh with hA
  obtain ⟨s1, e3, hP1, hz3, hl3, hl4⟩ := loop_inv (n := nc) (s := (ia2, List.replicate (start A nc) 0))
    (f := fun i s => pushAt (i + 1) i s)
    (fun k s => Pushing nc A (selfItems k) s ∧ s.1[0]? = some (start A nc) ∧ s.1.length = nc + 1 ∧ s.2.length = start A nc)
    ⟨pushing_init (by omega) hs2 (by simp), hz2, hlen2, by simp⟩
    (by
      rintro i s hi ⟨hP, hz, hl, hl'⟩
      have hpre : selfItems i ++ [(i, i)] <+: A := by
        rw [← selfItems_succ, hA, allItems]
        refine List.IsPrefix.trans ?_ (List.prefix_append _ _)
        exact (List.IsPrefix.map _ (by
          refine ⟨(List.range (nc - (i + 1))).map (fun x => i + 1 + x), ?_⟩
          rw [← List.range_add]; congr 1; omega))
      obtain ⟨rest, hrest⟩ := hpre
      obtain ⟨s', a1, a2, a3, a4, a5⟩ := push_step (v := i) (rest := rest) (by rw [← hrest]; simp) hi hP
      exact ⟨s', a1, by rw [selfItems_succ]; exact a2, by rw [a3]; exact hz, by omega, by omega⟩)
  obtain ⟨s2, e4, hP2, hz4, hl5⟩ := loop_inv (n := nneigh) (s := s1)
    (f := fun i s => do
      let c1 ← rd neigh (2 * i)
      let c2 ← rd neigh (2 * i + 1)
      if c1 ≥ 0 ∧ c2 ≥ 0 then do
        let s ← pushAt (c1 + 1).toNat c2.toNat s
        pushAt (c2 + 1).toNat c1.toNat s
      else .ok s)
    (fun k s => Pushing nc A (selfItems nc ++ nItems neigh k) s ∧ s.1[0]? = some (start A nc) ∧ s.1.length = nc + 1)
    ⟨by simpa [nItems] using hP1, hz3, hl3⟩
    (by
      rintro i s hi ⟨hP, hz, hl⟩
      obtain ⟨g1, g2⟩ := hn.get hi
      obtain ⟨l1, l2⟩ := hn.get_lt hi
      have hpre : selfItems nc ++ nItems neigh (i + 1) <+: A := by
        rw [hA, allItems, List.prefix_append_right_inj]
        refine flatMap_prefix _ ⟨(List.range (nneigh - (i + 1))).map (fun x => i + 1 + x), ?_⟩
        rw [← List.range_add]; congr 1; omega
      rw [nItems_succ] at hpre ⊢
      unfold pairItems at hpre ⊢
      rw [rd_of_getElem? g1, bind_ok, rd_of_getElem? g2, bind_ok]
      simp only at hpre ⊢
      generalize neigh.getD (2 * i) (-1) = a at *
      generalize neigh.getD (2 * i + 1) (-1) = b at *
      split
      · rename_i hp
        rw [if_pos hp] at hpre
        obtain ⟨x, rfl⟩ := Int.eq_ofNat_of_zero_le hp.1
        obtain ⟨y, rfl⟩ := Int.eq_ofNat_of_zero_le hp.2
        obtain ⟨rest, hrest⟩ := hpre
        simp only [Int.toNat_natCast] at hrest
        obtain ⟨s1, a1, a2, a3, a4, a5⟩ := push_step (r := x) (v := y) (rest := (y, x) :: rest) (by rw [← hrest]; simp) (by omega) hP
        obtain ⟨s2, b1, b2, b3, b4, b5⟩ := push_step (r := y) (v := x) (rest := rest) (by rw [← hrest]; simp) (by omega) a2
        refine ⟨s2, ?_, ?_, by rw [b3, a3]; exact hz, by omega⟩
        · rw [show ((x : Int) + 1).toNat = x + 1 by omega, show ((y : Int) + 1).toNat = y + 1 by omega]
          simp only [Int.toNat_natCast]
          rw [a1, bind_ok, b1]
        · simpa using b2
      · exact ⟨s, rfl, by simpa using hP, hz, hl⟩)
  refine ⟨s2.1, s2.2, ?_, hl5, hz4, ?_, ?_⟩
  · unfold createC2C
    rw [check_ok (by simpa using h0), bind_ok, check_ok (by simpa using h1), bind_ok, fill_ok _ _ _ (by simp), bind_ok, e1,
      bind_ok, e2, bind_ok, rd_of_getElem? hz2, bind_ok, e3, bind_ok]
    unfold insertC2C
    exact e4
  · intro c hc
    exact hP2.ptr c hc
  · intro c k x hc hk
    exact hP2.dat c hc k x hk

theorem sum_le_sum_int (l : List Nat) (f g : Nat → Int) (h : ∀ c ∈ l, f c ≤ g c) : (l.map f).sum ≤ (l.map g).sum := by
  induction l with
  | nil => simp
  | cons c l ih =>
    have h1 := h c (List.mem_cons_self ..)
    have h2 := ih (fun c hc => h c (List.mem_cons_of_mem _ hc))
    simp only [List.map_cons, List.sum_cons]; omega

theorem items_length_eq (q : List Nat) (b : Nat) (R : Nat → List Nat) (locf : Nat → Nat) (cs : List Nat) (n : Nat) :
    ((((cs.zipIdx n).flatMap (F q b R locf)).length : Nat) : Int) =
      (cs.map (fun c => (((R c).filter (fun d => q[d]? = some b)).length : Int))).sum := by
  induction cs generalizing n with
  | nil => rfl
  | cons c cs ih =>
    rw [List.zipIdx_cons, List.flatMap_cons, List.length_append, List.map_cons, List.sum_cons, ← ih (n + 1)]
    simp [F]

/-- A block on which `pc2c` has the right row sizes gets enough room. -/
theorem cap_of_rows {q : List Nat} {b : Nat} {R : Nat → List Nat} {pc2c : List Nat} (loc : List Nat)
    (h : ∀ c ∈ cells q b, ((R c).length : Int) ≤ (pc2c.getD (c + 1) 0 : Int) - (pc2c.getD c 0 : Int)) :
    ((items q b R (fun d => loc.getD d 0)).length : Int) ≤ nConn q pc2c b := by
  rw [items, items_length_eq]
  refine sum_le_sum_int _ _ _ (fun c hc => ?_)
  have h1 := h c hc
  have h2 := List.length_filter_le (fun d => decide (q[d]? = some b)) (R c)
  omega

end Opm.Partition
