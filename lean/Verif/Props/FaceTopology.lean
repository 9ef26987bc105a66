import Verif.Proofs.Connections
import Mathlib.Tactic.IntervalCases
/-!
# Faces between neighbouring stacks of a corner-point grid

Two stacks of layers share a pair of pillars.  `findconnections` makes one face for each pair of layers, at least one of which is a cell, that overlap in the plane
between the pillars, whatever the shape of the stacks; its points are the corners of the common part.
-/

namespace Opm.Cpg
open Opm UniquePoints

section
variable {A B : Stack} {n : Nat}

/-- For any two stacks there are faces `fs` and crossings `qs` as in the specification, and `findconnections` appends exactly these, if there is room for them; the work
array is left as it was found. -/
theorem connections (hA : A.Ok n) (hB : B.Ok n) (base : Nat) : ∃ fs qs, Connections A B n base fs qs ∧ fs.length ≤ (n - 1) * (n - 1) ∧ qs.length ≤ (n - 1) * (n - 1) ∧
    ∀ (plist : List Int) (pa qa pb qb : Nat), ColAt plist pa n A.p → ColAt plist qa n A.q → ColAt plist pb n B.p → ColAt plist qb n B.q →
    ∀ (np : Nat) (fs0 : List Face) (qs0 : List (List Int)) (capF capC capX capP : Nat) (f c x : Cur Int) (ptr : List Nat),
    base = np + qs0.length → Room capF capC capX capP (fs0 ++ fs) (qs0 ++ qs) →
    f.Rep capF (faceNodes fs0) → c.Rep capC (faceNbrs fs0) → x.Rep capX qs0.flatten → ptr.length = capP → ptr.take (fs0.length + 1) = facePtr fs0 →
    ∃ s, findConnections plist pa qa pb qb n f c x ptr fs0.length base (List.replicate n (-1)) (List.replicate n (-1)) = .ok s ∧
      Holds np capF capC capX capP s (fs0 ++ fs) (qs0 ++ qs) ∧ s.top = List.replicate n (-1) ∧ s.bot = List.replicate n (-1) := by
  refine ⟨connFaces A B n base, crossings A B n, conn_spec hA hB base, length_connFaces base, length_crossings, ?_⟩
  intro plist pa qa pb qb h1 h2 h3 h4 np fs0 qs0 capF capC capX capP f c x ptr hb hr hf hc hx hp hpt
  subst hb
  exact findConnections_ok hA hB h1 h2 h3 h4 hr hf hc hx hp hpt rfl rfl

/-- Each face is a polygon with three to six different points. -/
theorem simple_faces (hA : A.Ok n) (hB : B.Ok n) {base : Nat} (hs : Separate A B n base) {fs : List Face} {qs : List (List Int)} (h : Connections A B n base fs qs) :
    ∀ f ∈ fs, f.nodes.Nodup ∧ 3 ≤ f.nodes.length ∧ f.nodes.length ≤ 6 := by
  obtain ⟨x, pairs, _, hm, hf, hx⟩ := h.faces
  intro f hfm
  obtain ⟨⟨i, j⟩, hij, _, _, k, hk⟩ := forall₂_mem hf hfm
  obtain ⟨hi, hj, hc, hov⟩ := (hm _ _ deeper_cast deeper_cast i j).1 hij
  have ho := ordered hA hB hi hj
  have hne := (overlap_iff ho deeper_cast deeper_cast).1 hov
  have hab := (above_iff ho).1 hne
  rw [hk]
  simp only [List.nodup_rotate, List.length_rotate]
  refine ⟨?_, three_corners ho hab, length_outline x i j ho⟩
  have fin : (intMin < A.p i ∧ A.p (i + 1) < intMax ∧ intMin < A.q i ∧ A.q (i + 1) < intMax) ∨
      (intMin < B.p j ∧ B.p (j + 1) < intMax ∧ intMin < B.q j ∧ B.q (j + 1) < intMax) := by
    rcases hc with hc | hc
    · left
      have h1 := (hA.cell i hc (by omega)).resolve_left hne.1
      have h2 := (hs.cellQ A (by simp) i hc (by omega)).resolve_left hne.1
      exact ⟨h1.1, h1.2, h2.1, h2.2⟩
    · right
      have h1 := (hB.cell j hc (by omega)).resolve_left hne.2.1
      have h2 := (hs.cellQ B (by simp) j hc (by omega)).resolve_left hne.2.1
      exact ⟨h1.1, h1.2, h2.1, h2.2⟩
  have hp := fun (S : Stack) hS (k : Nat) (hk : k < n) => hs.onP S hS k hk
  have hq := fun (S : Stack) hS (k : Nat) (hk : k < n) => hs.onQ S hS k hk
  have hd := fun (S : Stack) hS (T : Stack) hT (k l : Nat) (hk : k < n) (hl : l < n) => hs.differ S hS T hT k l hk hl
  have mA : A ∈ [A, B] := by simp
  have mB : B ∈ [A, B] := by simp
  refine corners_nodup (base := base) ho hab ?_ ?_ ?_ ?_ ?_
  · intro k l hk hl hcr
    obtain ⟨m, e, _⟩ := hx k l (by omega) (by omega) hcr
    omega
  · intro k l k' l' hk hl hk' hl' hcr hcr' e
    obtain ⟨m, e1, e2⟩ := hx k l (by omega) (by omega) hcr
    obtain ⟨m', e1', e2'⟩ := hx k' l' (by omega) (by omega) hcr'
    have : m = m' := by omega
    rw [this] at e2
    exact Option.some.inj (e2.symm.trans e2')
  · intro _
    have h1 := hp A mA (i + 1) (by omega)
    have h2 := hp B mB (j + 1) (by omega)
    omega
  · intro _
    have h1 := hq A mA (i + 1) (by omega)
    have h2 := hq B mB (j + 1) (by omega)
    omega
  · intro g1 g2
    have f1 : intMin < max (A.p i) (B.p j) ∧ min (A.p (i + 1)) (B.p (j + 1)) < intMax := by
      rcases fin with h | h
      · exact ⟨lt_of_lt_of_le h.1 (le_max_left _ _), lt_of_le_of_lt (min_le_left _ _) h.2.1⟩
      · exact ⟨lt_of_lt_of_le h.1 (le_max_right _ _), lt_of_le_of_lt (min_le_right _ _) h.2.1⟩
    have key : ∀ u v : Int, (∃ S ∈ [A, B], ∃ k, k < n ∧ u = S.p k) → (∃ T ∈ [A, B], ∃ l, l < n ∧ v = T.q l) → intMin < u → u < intMax → u ≠ v := by
      rintro u v ⟨S, hS, k, hk, rfl⟩ ⟨T, hT, l, hl, rfl⟩
      exact hd S hS T hT k l hk hl
    have p1 : ∃ S ∈ [A, B], ∃ k, k < n ∧ max (A.p i) (B.p j) = S.p k := by
      rcases le_total (A.p i) (B.p j) with h | h
      · exact ⟨B, mB, j, by omega, max_eq_right h⟩
      · exact ⟨A, mA, i, by omega, max_eq_left h⟩
    have p2 : ∃ S ∈ [A, B], ∃ k, k < n ∧ min (A.p (i + 1)) (B.p (j + 1)) = S.p k := by
      rcases le_total (A.p (i + 1)) (B.p (j + 1)) with h | h
      · exact ⟨A, mA, i + 1, by omega, min_eq_left h⟩
      · exact ⟨B, mB, j + 1, by omega, min_eq_right h⟩
    have q1 : ∃ S ∈ [A, B], ∃ k, k < n ∧ max (A.q i) (B.q j) = S.q k := by
      rcases le_total (A.q i) (B.q j) with h | h
      · exact ⟨B, mB, j, by omega, max_eq_right h⟩
      · exact ⟨A, mA, i, by omega, max_eq_left h⟩
    have q2 : ∃ S ∈ [A, B], ∃ k, k < n ∧ min (A.q (i + 1)) (B.q (j + 1)) = S.q k := by
      rcases le_total (A.q (i + 1)) (B.q (j + 1)) with h | h
      · exact ⟨A, mA, i + 1, by omega, min_eq_left h⟩
      · exact ⟨B, mB, j + 1, by omega, min_eq_right h⟩
    have f2 := lt_of_lt_of_le f1.1 g1
    have f3 := lt_of_le_of_lt g1 f1.2
    exact ⟨key _ _ p1 q1 f1.1 f3, key _ _ p1 q2 f1.1 f3, key _ _ p2 q1 f2 f1.2, key _ _ p2 q2 f2 f1.2⟩

/-! ### The faces of a cell cover its side -/

theorem depth_mono (hA : A.Ok n) {hp hq : Int → Rat} (h1 : Deeper hp) (h2 : Deeper hq) {t : Rat} (t0 : 0 < t) (t1 : t < 1) {i j : Nat} (hij : i ≤ j) (hj : j < n) :
    A.depth hp hq i t ≤ A.depth hp hq j t := by
  have e1 := mono_le' h1 (mono_le hA.monoP hij hj)
  have e2 := mono_le' h2 (mono_le hA.monoQ hij hj)
  unfold Stack.depth
  have m1 := mul_le_mul_of_nonneg_left e1 (show 0 ≤ 1 - t by linarith)
  have m2 := mul_le_mul_of_nonneg_left e2 (le_of_lt t0)
  linarith

theorem last_below {f : Nat → Rat} {z : Rat} : ∀ m, f 0 < z → ¬ f m < z → ∃ j, j < m ∧ f j < z ∧ ¬ f (j + 1) < z := by
  intro m
  induction m with
  | zero => intro h0 hm; exact absurd h0 hm
  | succ m ih =>
    intro h0 hm
    by_cases h : f m < z
    · exact ⟨m, Nat.lt_succ_self _, h, hm⟩
    · obtain ⟨j, hj, h⟩ := ih h0 h
      exact ⟨j, by omega, h⟩

/-- Every point inside the side of a cell, not on a line of the other stack, is inside exactly one layer of the other stack, and there is a face between the two. -/
theorem side_covered (hA : A.Ok n) (hB : B.Ok n) {base : Nat} {fs : List Face} {qs : List (List Int)} (h : Connections A B n base fs qs) {hp hq : Int → Rat}
    (h1 : Deeper hp) (h2 : Deeper hq) {i : Nat} (hi : i < n - 1) (hc : IsCell i) {t z : Rat} (t0 : 0 < t) (t1 : t < 1) (hin : A.Inside hp hq i t z)
    (hoff : ∀ j, j < n → z ≠ B.depth hp hq j t) :
    ∃ j, j < n - 1 ∧ B.Inside hp hq j t z ∧ (∀ j', j' < n - 1 → B.Inside hp hq j' t z → j' = j) ∧ ∃ f ∈ fs, f.a = ((i / 2 : Nat) : Int) ∧ f.b = cellNumber j := by
  have e0 : B.depth hp hq 0 t < z := by
    have h3 := depth_mono hA h1 h2 t0 t1 (Nat.zero_le i) (by omega)
    have : B.depth hp hq 0 t = A.depth hp hq 0 t := by unfold Stack.depth; rw [hA.first.1, hA.first.2, hB.first.1, hB.first.2]
    rw [this]
    exact lt_of_le_of_lt h3 hin.1
  have e1 : ¬ B.depth hp hq (n - 1) t < z := by
    have h3 := depth_mono hA h1 h2 t0 t1 (show i + 1 ≤ n - 1 by omega) (by omega)
    have : B.depth hp hq (n - 1) t = A.depth hp hq (n - 1) t := by unfold Stack.depth; rw [hA.last.1, hA.last.2, hB.last.1, hB.last.2]
    rw [this]
    exact not_lt.2 (le_trans (le_of_lt hin.2) h3)
  obtain ⟨j, hj, g0, g1⟩ := last_below (f := fun j => B.depth hp hq j t) (n - 1) e0 e1
  have hinB : B.Inside hp hq j t z := ⟨g0, lt_of_le_of_ne (not_lt.1 g1) (hoff (j + 1) (by omega))⟩
  refine ⟨j, hj, hinB, ?_, ?_⟩
  · intro j' hj' hin'
    rcases Nat.lt_trichotomy j' j with hl | hl | hl
    · have := depth_mono hB h1 h2 t0 t1 (show j' + 1 ≤ j by omega) (by omega)
      exact absurd (lt_of_lt_of_le hin'.2 this) (not_lt.2 (le_of_lt g0))
    · exact hl
    · have := depth_mono hB h1 h2 t0 t1 (show j + 1 ≤ j' by omega) (by omega)
      exact absurd (lt_of_lt_of_le hinB.2 this) (not_lt.2 (le_of_lt hin'.1))
  · obtain ⟨x, pairs, _, hm, hf, _⟩ := h.faces
    have : (i, j) ∈ pairs := (hm hp hq h1 h2 i j).2 ⟨hi, hj, Or.inl hc, t, z, t0, t1, hin, hinB⟩
    obtain ⟨f, hfm, ha, hb, _⟩ := forall₂_mem' hf this
    refine ⟨f, hfm, ?_, hb⟩
    rw [ha]
    unfold cellNumber
    rw [if_pos hc]

end

/-! ### A faulted pair of stacks -/

section
/-- Lines from a list. -/
def stackOf (p q : List Int) : Stack := ⟨fun i => p.getD i 0, fun i => q.getD i 0⟩

/-- Two cells on each side; four pairs of lines cross. -/
def exA : Stack := stackOf [intMin, 0, 2, 2, 4, intMax] [intMin, 10, 12, 12, 14, intMax]
def exB : Stack := stackOf [intMin, 1, 5, 5, 6, intMax] [intMin, 9, 11, 11, 13, intMax]

theorem exA_ok : exA.Ok 6 := by
  refine ⟨?_, ?_, by decide, by decide, ?_, ?_⟩ <;> intro i
  · intro h; have : i < 5 := by omega
    interval_cases i <;> decide
  · intro h; have : i < 5 := by omega
    interval_cases i <;> decide
  · intro h1 h2; have : i < 5 := by omega
    interval_cases i <;> first | omega | decide
  · intro h; interval_cases i <;> decide

theorem exB_ok : exB.Ok 6 := by
  refine ⟨?_, ?_, by decide, by decide, ?_, ?_⟩ <;> intro i
  · intro h; have : i < 5 := by omega
    interval_cases i <;> decide
  · intro h; have : i < 5 := by omega
    interval_cases i <;> decide
  · intro h1 h2; have : i < 5 := by omega
    interval_cases i <;> first | omega | decide
  · intro h; interval_cases i <;> decide

/-- What is stored in the arrays. -/
structure Listing where
  nf : Nat
  nbr : List Int
  nodes : List Int
  ptr : List Nat
  nn : Nat
  its : List Int
  deriving DecidableEq

/-- The faces and crossings of the example, starting with empty arrays. -/
def exRun : M Listing := do
  let s ← findConnections ([intMin, 0, 2, 2, 4, intMax] ++ [intMin, 10, 12, 12, 14, intMax] ++ [intMin, 1, 5, 5, 6, intMax] ++ [intMin, 9, 11, 11, 13, intMax]) 0 6 12 18 6
    ⟨List.replicate 60 0, 0⟩ ⟨List.replicate 20 0, 0⟩ ⟨List.replicate 20 0, 0⟩ (List.replicate 20 0) 0 15 (List.replicate 6 (-1)) (List.replicate 6 (-1))
  .ok ⟨s.nf, s.c.buf.take (2 * s.nf), s.f.buf.take s.f.pos, s.ptr.take (s.nf + 1), s.nn, s.x.buf.take s.x.pos⟩

example : exRun = .ok ⟨9, [-1, 0, 0, -1, 0, 0, 0, 1, 1, 0, 1, 1, 1, -1, -1, 0, -1, 1],
    [15, 9, 10, 0, 15, 1, 1, 15, 10, 11, 16, 2, 16, 11, 12, 2, 16, 17, 4, 17, 16, 12, 13, 18, 18, 13, 14, 4, 17, 5, 5, 17, 18, 6],
    [0, 3, 6, 12, 15, 19, 24, 27, 30, 34], 19, [0, 10, 1, 9, 2, 12, 5, 11, 4, 14, 5, 11, 4, 14, 6, 13]⟩ := by decide +kernel

/-- The specification holds for the example, whatever the depths of the points. -/
example : ∃ fs qs, Connections exA exB 6 15 fs qs := by
  obtain ⟨fs, qs, h, _⟩ := connections exA_ok exB_ok 15
  exact ⟨fs, qs, h⟩

/-- Its points are separate. -/
theorem ex_separate : Separate exA exB 6 15 := by
  have h : ∀ S ∈ [exA, exB], ∀ i, i < 6 → (S.p i < intMax → S.p i < 15) ∧ (S.q i < intMax → S.q i < 15) := by decide
  have hd : ∀ S ∈ [exA, exB], ∀ T ∈ [exA, exB], ∀ i, i < 6 → ∀ j, j < 6 → intMin < S.p i → S.p i < intMax → S.p i ≠ T.q j := by decide
  have hc : ∀ S ∈ [exA, exB], ∀ i, i < 5 → IsCell i → S.Empty i ∨ (intMin < S.q i ∧ S.q (i + 1) < intMax) := by decide
  exact ⟨fun S hS i hi => (h S hS i hi).1, fun S hS i hi => (h S hS i hi).2, fun S hS T hT i j hi hj => hd S hS T hT i hi j hj, fun S hS i h1 h2 => hc S hS i (by omega) h1⟩

/-- A point inside the first cell, between the lines of the other stack. -/
example : exA.Inside (fun x => (x : Rat)) (fun x => (x : Rat)) 1 (1 / 2) (11 / 2) ∧ ∀ j, j < 6 → (11 / 2 : Rat) ≠ exB.depth (fun x => (x : Rat)) (fun x => (x : Rat)) j (1 / 2) := by
  decide +kernel

end

end Opm.Cpg
