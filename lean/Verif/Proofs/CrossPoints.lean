import Verif.Proofs.Points
import Verif.Proofs.CellNumbers
import Verif.Props.FaceTopology

import Mathlib.Tactic.FieldSimp
/-!
# Points where lines of neighbouring stacks cross
-/

namespace Opm.Cpg
open Opm UniquePoints

/-- `v` is the number of a point of pillar `q`. -/
def PillarNum (start : Nat → Nat) (q : Nat) (v : Int) : Prop := ∃ k : Nat, v = k ∧ start q ≤ k ∧ k < start (q + 1)

/-- The two pillars of a pair. -/
def pairPillars (nx dir i j : Nat) : Nat × Nat := if dir = 0 then (i + (nx + 1) * j, i + (nx + 1) * (j + 1)) else (i + 1 + (nx + 1) * j, i + (nx + 1) * j)

theorem num_ge {start : Nat → Nat} {q : Nat} {v : Int} (h : v = intMin ∨ v = intMax ∨ PillarNum start q v) : intMin ≤ v := by
  have h0 : intMin < 0 := by decide
  have h1 : 0 < intMax := by decide
  rcases h with e | e | ⟨k, e, _⟩ <;> omega

section
variable {nx ny nz np : Nat} {plist : List Int} {col : Nat → Nat → Nat → Int} {act : Nat → Nat → Nat → Prop} {start : Nat → Nat}

theorem pair_side (hx : 0 < nx) (hy : 0 < ny) {dir i j : Nat} (hp : IsPair nx ny dir i j) {S : Stack} (hS : S ∈ [lowStack col dir i j, highStack nx ny col dir i j]) :
    ∃ s a b, S = sideStack col dir s a b ∧ s < 2 ∧ a < nx ∧ b < ny ∧ (dir = 0 → a + s = i ∧ b = j) ∧ (dir ≠ 0 → a = i ∧ b + s = j) := by
  have low : ∃ s a b, lowStack col dir i j = sideStack col dir s a b ∧ s < 2 ∧ a < nx ∧ b < ny ∧ (dir = 0 → a + s = i ∧ b = j) ∧ (dir ≠ 0 → a = i ∧ b + s = j) := by
    unfold lowStack
    obtain ⟨h1, h2, h3⟩ := hp
    cases e : lowCol dir i j with
    | some c =>
      obtain ⟨a, b⟩ := c
      obtain ⟨g1, g2⟩ := lowCol_lt ⟨h1, h2, h3⟩ e
      refine ⟨1, a, b, rfl, by omega, g1, g2, ?_, ?_⟩ <;> intro hd <;> unfold lowCol at e <;> simp only [hd, if_true, if_false] at e <;> split at e <;> cases e <;> omega
    | none =>
      refine ⟨0, i, j, rfl, by omega, ?_, ?_, fun _ => ⟨by omega, rfl⟩, fun _ => ⟨rfl, by omega⟩⟩
      · unfold lowCol at e
        split at e <;> split at e <;> first | omega | cases e
      · unfold lowCol at e
        split at e <;> split at e <;> first | omega | cases e
  rcases List.mem_cons.1 hS with rfl | hS
  · exact low
  · rw [List.mem_singleton] at hS
    subst hS
    unfold highStack
    cases e : highCol nx ny i j with
    | some c =>
      obtain ⟨a, b⟩ := c
      obtain ⟨g1, g2, rfl, rfl⟩ := highCol_lt e
      exact ⟨0, a, b, rfl, by omega, g1, g2, fun _ => ⟨by omega, rfl⟩, fun _ => ⟨rfl, by omega⟩⟩
    | none => exact low

/-- The numbers on the lines of the stacks at a pair of pillars. -/
theorem Columns.onPair (h : Columns nx ny nz np plist col act start) (hx : 0 < nx) (hy : 0 < ny) {dir i j : Nat} (hp : IsPair nx ny dir i j) {S : Stack}
    (hS : S ∈ [lowStack col dir i j, highStack nx ny col dir i j]) {K : Nat} (hK : K < 2 * nz + 2) :
    (S.p K = intMin ↔ S.q K = intMin) ∧ (K < 2 * nz + 1 → S.p K < intMax ∧ S.q K < intMax) ∧
    (S.p K = intMin ∨ S.p K = intMax ∨ PillarNum start (pairPillars nx dir i j).1 (S.p K)) ∧
    (S.q K = intMin ∨ S.q K = intMax ∨ PillarNum start (pairPillars nx dir i j).2 (S.q K)) := by
  obtain ⟨s, a, b, rfl, hs, ha, hb, h0, h1⟩ := pair_side hx hy hp hS
  unfold sideStack pairPillars
  by_cases hd : dir = 0
  · obtain ⟨e1, e2⟩ := h0 hd
    simp only [hd, if_true]
    refine ⟨⟨h.above _ _ _ _ K (by omega) (by omega) (by omega) (by omega) hK (by omega) (by omega), h.above _ _ _ _ K (by omega) (by omega) (by omega) (by omega) hK (by omega) (by omega)⟩,
      fun hK' => ⟨h.below _ _ K (by omega) (by omega) hK', h.below _ _ K (by omega) (by omega) hK'⟩, ?_, ?_⟩
    · have := h.number (2 * a + s) (2 * b) K (by omega) (by omega) hK
      rw [show (2 * a + s + 1) / 2 = i by omega, show (2 * b + 1) / 2 = j by omega] at this
      exact this
    · have := h.number (2 * a + s) (2 * b + 1) K (by omega) (by omega) hK
      rw [show (2 * a + s + 1) / 2 = i by omega, show (2 * b + 1 + 1) / 2 = j + 1 by omega] at this
      exact this
  · obtain ⟨e1, e2⟩ := h1 hd
    simp only [hd, if_false]
    refine ⟨⟨h.above _ _ _ _ K (by omega) (by omega) (by omega) (by omega) hK (by omega) (by omega), h.above _ _ _ _ K (by omega) (by omega) (by omega) (by omega) hK (by omega) (by omega)⟩,
      fun hK' => ⟨h.below _ _ K (by omega) (by omega) hK', h.below _ _ K (by omega) (by omega) hK'⟩, ?_, ?_⟩
    · have := h.number (2 * a + 1) (2 * b + s) K (by omega) (by omega) hK
      rw [show (2 * a + 1 + 1) / 2 = i + 1 by omega, show (2 * b + s + 1) / 2 = j by omega] at this
      exact this
    · have := h.number (2 * a) (2 * b + s) K (by omega) (by omega) hK
      rw [show (2 * a + 1) / 2 = i by omega, show (2 * b + s + 1) / 2 = j by omega] at this
      exact this

theorem pairPillars_lt {dir i j : Nat} (hp : IsPair nx ny dir i j) : (pairPillars nx dir i j).1 < (nx + 1) * (ny + 1) ∧ (pairPillars nx dir i j).2 < (nx + 1) * (ny + 1) ∧
    (pairPillars nx dir i j).1 ≠ (pairPillars nx dir i j).2 := by
  obtain ⟨h1, h2, h3⟩ := hp
  unfold pairPillars
  have h01 : dir = 0 ∨ dir = 1 := by omega
  rcases h01 with rfl | rfl
  · simp only [if_true]
    refine ⟨idx2_lt (by omega) (by omega), idx2_lt (by omega) (by omega), ?_⟩
    rw [Nat.mul_add]; omega
  · simp only [one_ne_zero, if_false]
    refine ⟨idx2_lt (by omega) (by omega), idx2_lt (by omega) (by omega), by omega⟩

/-- Crossings are defined by four points on the two pillars. -/
theorem Columns.crossNum (h : Columns nx ny nz np plist col act start) (hx : 0 < nx) (hy : 0 < ny) {dir i j : Nat} (hp : IsPair nx ny dir i j) {K L : Nat}
    (hK : K < 2 * nz + 2) (hL : L < 2 * nz + 2) (hc : Cross (lowStack col dir i j) (highStack nx ny col dir i j) K L) :
    PillarNum start (pairPillars nx dir i j).1 ((lowStack col dir i j).p K) ∧ PillarNum start (pairPillars nx dir i j).2 ((lowStack col dir i j).q K) ∧
    PillarNum start (pairPillars nx dir i j).1 ((highStack nx ny col dir i j).p L) ∧ PillarNum start (pairPillars nx dir i j).2 ((highStack nx ny col dir i j).q L) := by
  have a := h.onPair hx hy hp (S := lowStack col dir i j) (by simp) hK
  have b := h.onPair hx hy hp (S := highStack nx ny col dir i j) (by simp) hL
  have okA := h.lowOk hx hy hp
  have okB := h.highOk hx hy hp
  obtain ⟨a1, a2, a3, a4⟩ := a
  obtain ⟨b1, b2, b3, b4⟩ := b
  have lA : K = 2 * nz + 1 → (lowStack col dir i j).p K = intMax ∧ (lowStack col dir i j).q K = intMax := by
    rintro rfl; exact okA.last
  have lB : L = 2 * nz + 1 → (highStack nx ny col dir i j).p L = intMax ∧ (highStack nx ny col dir i j).q L = intMax := by
    rintro rfl; exact okB.last
  have hA : (lowStack col dir i j).p K < intMax ∧ (lowStack col dir i j).q K < intMax ∨ (lowStack col dir i j).p K = intMax ∧ (lowStack col dir i j).q K = intMax := by
    rcases Nat.lt_or_ge K (2 * nz + 1) with hl | hl
    · exact Or.inl (a2 hl)
    · exact Or.inr (lA (by omega))
  have hB : (highStack nx ny col dir i j).p L < intMax ∧ (highStack nx ny col dir i j).q L < intMax ∨ (highStack nx ny col dir i j).p L = intMax ∧ (highStack nx ny col dir i j).q L = intMax := by
    rcases Nat.lt_or_ge L (2 * nz + 1) with hl | hl
    · exact Or.inl (b2 hl)
    · exact Or.inr (lB (by omega))
  have m1 := num_ge a3
  have m2 := num_ge a4
  have m3 := num_ge b3
  have m4 := num_ge b4
  unfold Cross at hc
  refine ⟨(a3.resolve_left ?_).resolve_left ?_, (a4.resolve_left ?_).resolve_left ?_, (b3.resolve_left ?_).resolve_left ?_, (b4.resolve_left ?_).resolve_left ?_⟩ <;> intro hh <;> omega

/-- Points at a pair of pillars have different numbers. -/
theorem Columns.separate (h : Columns nx ny nz np plist col act start) (hx : 0 < nx) (hy : 0 < ny) {dir i j : Nat} (hp : IsPair nx ny dir i j) {base : Nat} (hb : np ≤ base) :
    Separate (lowStack col dir i j) (highStack nx ny col dir i j) (2 * nz + 2) base := by
  obtain ⟨q1, q2, q3⟩ := pairPillars_lt hp
  have hle : ∀ q, q < (nx + 1) * (ny + 1) → start (q + 1) ≤ np := by
    intro q hq
    rw [← h.total]
    exact start_mono h.mono' (by omega) (Nat.le_refl _)
  have hlt : ∀ {q : Nat} {v : Int}, q < (nx + 1) * (ny + 1) → v = intMin ∨ v = intMax ∨ PillarNum start q v → v < intMax → v < base := by
    rintro q v hq (e | e | ⟨k, e, h1, h2⟩) hv
    · have : intMin < 0 := by decide
      omega
    · omega
    · have := hle q hq
      omega
  refine ⟨?_, ?_, ?_, ?_⟩
  · intro S hS K hK
    exact hlt q1 (h.onPair hx hy hp hS hK).2.2.1
  · intro S hS K hK
    exact hlt q2 (h.onPair hx hy hp hS hK).2.2.2
  · intro S hS T hT K L hK hL h1 h2 e
    obtain ⟨k, e1, k1, k2⟩ := ((h.onPair hx hy hp hS hK).2.2.1.resolve_left (by omega)).resolve_left (by omega)
    obtain ⟨l, e2, l1, l2⟩ := ((h.onPair hx hy hp hT hL).2.2.2.resolve_left (by omega)).resolve_left (by omega)
    have hkl : k = l := by omega
    subst hkl
    rcases Nat.lt_or_gt_of_ne q3 with hq | hq
    · have := start_mono h.mono' (show (pairPillars nx dir i j).1 + 1 ≤ (pairPillars nx dir i j).2 by omega) (by omega)
      omega
    · have := start_mono h.mono' (show (pairPillars nx dir i j).2 + 1 ≤ (pairPillars nx dir i j).1 by omega) (by omega)
      omega
  · intro S hS K hK hK'
    obtain ⟨a1, a2, a3, a4⟩ := h.onPair hx hy hp hS (K := K) (by omega)
    have hok : S.Ok (2 * nz + 2) := by
      rcases List.mem_cons.1 hS with rfl | hS
      · exact h.lowOk hx hy hp
      · rw [List.mem_singleton] at hS
        rw [hS]
        exact h.highOk hx hy hp
    rcases hok.cell K hK hK' with he | ⟨h1, h2⟩
    · exact Or.inl he
    · right
      have m := num_ge a4
      refine ⟨lt_of_le_of_ne m (fun e => ?_), ?_⟩
      · have := a1.2 e.symm
        omega
      · have b := h.onPair hx hy hp hS (K := K + 1) hK'
        have hodd : K % 2 = 1 := hK
        exact (b.2.1 (by omega)).2

end

/-! ### Coordinates -/

theorem getD_rdI {c : List Rat} {i : Int} {n : Nat} (hi : i = n) (h : n < c.length) : rdI c i = .ok (c.getD n 0) := by
  refine rdI_of_getElem? hi ?_
  rw [List.getElem?_eq_getElem h, List.getD_eq_getElem?_getD, List.getElem?_eq_getElem h]
  rfl

theorem intersectionPt_ok {L : Nat → M Int} {c : List Rat} {k0 k1 k2 k3 : Nat} (h0 : L 0 = .ok (k0 : Int)) (h1 : L 1 = .ok (k1 : Int)) (h2 : L 2 = .ok (k2 : Int))
    (h3 : L 3 = .ok (k3 : Int)) (l0 : 3 * k0 + 2 < c.length) (l1 : 3 * k1 + 2 < c.length) (l2 : 3 * k2 + 2 < c.length) (l3 : 3 * k3 + 2 < c.length)
    (hz : ((ptOf c k0).z < (ptOf c k2).z ∧ (ptOf c k3).z < (ptOf c k1).z) ∨ ((ptOf c k2).z < (ptOf c k0).z ∧ (ptOf c k1).z < (ptOf c k3).z)) :
    ∃ p, intersectionPt L c = .ok [p.x, p.y, p.z] ∧ CrossPoint (ptOf c k0) (ptOf c k1) (ptOf c k2) (ptOf c k3) p := by
  have n02 : (k0 : Int) ≠ k2 := by
    intro e
    have : k0 = k2 := by omega
    subst this
    rcases hz with ⟨h, _⟩ | ⟨h, _⟩ <;> exact lt_irrefl _ h
  have n13 : (k1 : Int) ≠ k3 := by
    intro e
    have : k1 = k3 := by omega
    subst this
    rcases hz with ⟨_, h⟩ | ⟨_, h⟩ <;> exact lt_irrefl _ h
  unfold intersectionPt
  rw [h0, bind_ok, h1, bind_ok, h2, bind_ok, h3, bind_ok, check_ok (decide_eq_true n02), bind_ok, check_ok (decide_eq_true n13), bind_ok,
    getD_rdI (n := 3 * k0 + 2) (by push_cast; rfl) l0, bind_ok, getD_rdI (n := 3 * k1 + 2) (by push_cast; rfl) l1, bind_ok,
    getD_rdI (n := 3 * k2 + 2) (by push_cast; rfl) l2, bind_ok, getD_rdI (n := 3 * k3 + 2) (by push_cast; rfl) l3, bind_ok]
  have x0 : rdI c (3 * (k0 : Int)) = .ok (c.getD (3 * k0) 0) := getD_rdI (by push_cast; rfl) (by omega)
  have y0 : rdI c (3 * (k0 : Int) + 1) = .ok (c.getD (3 * k0 + 1) 0) := getD_rdI (by push_cast; rfl) (by omega)
  have x1 : rdI c (3 * (k1 : Int)) = .ok (c.getD (3 * k1) 0) := getD_rdI (by push_cast; rfl) (by omega)
  have y1 : rdI c (3 * (k1 : Int) + 1) = .ok (c.getD (3 * k1 + 1) 0) := getD_rdI (by push_cast; rfl) (by omega)
  have x2 : rdI c (3 * (k2 : Int)) = .ok (c.getD (3 * k2) 0) := getD_rdI (by push_cast; rfl) (by omega)
  have y2 : rdI c (3 * (k2 : Int) + 1) = .ok (c.getD (3 * k2 + 1) 0) := getD_rdI (by push_cast; rfl) (by omega)
  have x3 : rdI c (3 * (k3 : Int)) = .ok (c.getD (3 * k3) 0) := getD_rdI (by push_cast; rfl) (by omega)
  have y3 : rdI c (3 * (k3 : Int) + 1) = .ok (c.getD (3 * k3 + 1) 0) := getD_rdI (by push_cast; rfl) (by omega)
  rw [x0, x1, x2, x3, y0, y1, y2, y3]
  change ((c.getD (3 * k0 + 2) 0 < c.getD (3 * k2 + 2) 0 ∧ c.getD (3 * k3 + 2) 0 < c.getD (3 * k1 + 2) 0) ∨ (c.getD (3 * k2 + 2) 0 < c.getD (3 * k0 + 2) 0 ∧ c.getD (3 * k1 + 2) 0 < c.getD (3 * k3 + 2) 0)) at hz
  unfold CrossPoint ptOf
  simp only
  generalize c.getD (3 * k0 + 2) 0 = z0 at *
  generalize c.getD (3 * k1 + 2) 0 = z1 at *
  generalize c.getD (3 * k2 + 2) 0 = z2 at *
  generalize c.getD (3 * k3 + 2) 0 = z3 at *
  have hd : (z1 - z0) - (z3 - z2) ≠ 0 := by
    rcases hz with ⟨h, h'⟩ | ⟨h, h'⟩
    · exact ne_of_gt (by linarith)
    · exact ne_of_lt (by linarith)
  have d02 : z2 - z0 ≠ 0 := by
    rcases hz with ⟨h, h'⟩ | ⟨h, h'⟩
    · exact ne_of_gt (by linarith)
    · exact ne_of_lt (by linarith)
  have d13 : z1 - z3 ≠ 0 := by
    rcases hz with ⟨h, h'⟩ | ⟨h, h'⟩
    · exact ne_of_gt (by linarith)
    · exact ne_of_lt (by linarith)
  have d13' : z3 - z1 ≠ 0 := by rwa [← neg_sub, neg_ne_zero]
  rw [if_pos hd, fdiv_ok hd]
  simp only [bind_ok]
  rw [fdiv_ok d02, fdiv_ok d02, fdiv_ok d13, fdiv_ok d13]
  simp only [bind_ok]
  obtain ⟨a, ha⟩ : ∃ a, a = (z2 - z0) / ((z1 - z0) - (z3 - z2)) := ⟨_, rfl⟩
  rw [← ha]
  have ea : a * ((z1 - z0) - (z3 - z2)) = z2 - z0 := by rw [ha]; field_simp
  have a0 : 0 < a := by
    rw [ha]
    rcases hz with ⟨h, h'⟩ | ⟨h, h'⟩
    · exact div_pos (by linarith) (by linarith)
    · exact div_pos_of_neg_of_neg (by linarith) (by linarith)
  have a1 : a < 1 := by
    rw [ha]
    rcases hz with ⟨h, h'⟩ | ⟨h, h'⟩
    · rw [div_lt_one (by linarith)]; linarith
    · rw [div_lt_one_of_neg (by linarith)]; linarith
  obtain ⟨z, hzz⟩ : ∃ z, z = z0 * (1 - a) + z1 * a := ⟨_, rfl⟩
  rw [← hzz]
  refine ⟨⟨_, _, z⟩, rfl, a, (z - z0) / (z2 - z0), (z1 - z) / (z1 - z3), a0, a1, ?_, ?_, ?_, ?_, ?_, ?_⟩
  · show z = _
    rw [hzz]; ring
  · show z = _
    rw [hzz]; linarith
  · show z = _
    field_simp; ring
  · show z = _
    field_simp; ring
  · have e1 : (z2 - z) / (z2 - z0) = 1 - (z - z0) / (z2 - z0) := by field_simp; ring
    have e2 : (z - z3) / (z1 - z3) = 1 - (z1 - z) / (z1 - z3) := by field_simp; ring
    simp only [e1, e2]
    ring
  · have e1 : (z2 - z) / (z2 - z0) = 1 - (z - z0) / (z2 - z0) := by field_simp; ring
    have e2 : (z - z3) / (z1 - z3) = 1 - (z1 - z) / (z1 - z3) := by field_simp; ring
    simp only [e1, e2]
    ring

/-- The coordinates of a list of points. -/
def ptCoords (ps : List Pt) : List Rat := ps.flatMap (fun p => [p.x, p.y, p.z])

theorem length_ptCoords (ps : List Pt) : (ptCoords ps).length = 3 * ps.length := by
  unfold ptCoords
  rw [length_flatMap_const (d := 3) (by intro p _; rfl)]
  ring

theorem ptOf_append {a : List Rat} {ps : List Pt} {c : List Rat} {n m : Nat} (ha : a.length = 3 * n) (hc : c.take (a ++ ptCoords ps).length = a ++ ptCoords ps) (hm : m < ps.length) {p : Pt}
    (hp : ps[m]? = some p) : ptOf c (n + m) = p := by
  have hlen : (a ++ ptCoords ps).length = 3 * n + 3 * ps.length := by rw [List.length_append, length_ptCoords, ha]
  have key : ∀ d, d < 3 → c.getD (3 * (n + m) + d) 0 = [p.x, p.y, p.z].getD d 0 := by
    intro d hd
    rw [← getD_take (show 3 * (n + m) + d < (a ++ ptCoords ps).length by omega), hc, List.getD_eq_getElem?_getD, List.getElem?_append_right (by omega),
      show 3 * (n + m) + d - a.length = d + 3 * m by omega]
    unfold ptCoords
    rw [Nat.add_comm, getElem?_flatMap_const (f := fun p : Pt => [p.x, p.y, p.z]) (d := 3) (l := ps) (by intro p _; rfl) hp hd]
    rfl
  unfold ptOf
  have k0 := key 0 (by omega)
  have k1 := key 1 (by omega)
  have k2 := key 2 (by omega)
  rw [Nat.add_zero] at k0
  rw [k0, k1, k2]
  rfl

theorem ptOf_take {a c : List Rat} {n k : Nat} (h : c.take (3 * n) = a.take (3 * n)) (hk : k < n) : ptOf c k = ptOf a k := by
  have key : ∀ d, d < 3 → c.getD (3 * k + d) 0 = a.getD (3 * k + d) 0 := by
    intro d hd
    rw [← getD_take (l := c) (show 3 * k + d < 3 * n by omega), h, getD_take (by omega)]
  unfold ptOf
  rw [key 1 (by omega), key 2 (by omega)]
  have := key 0 (by omega)
  rw [Nat.add_zero] at this
  rw [this]

/-- `q` lists the numbers of the four points that define a crossing. -/
def GoodQuad (np : Nat) (pt : Nat → Pt) (q : List Int) : Prop :=
  ∃ k0 k1 k2 k3 : Nat, q = [(k0 : Int), (k1 : Int), (k2 : Int), (k3 : Int)] ∧ k0 < np ∧ k1 < np ∧ k2 < np ∧ k3 < np ∧
    (((pt k0).z < (pt k2).z ∧ (pt k3).z < (pt k1).z) ∨ ((pt k2).z < (pt k0).z ∧ (pt k1).z < (pt k3).z))

theorem intersectionCoordinates_ok (J : Junk) {its : List Int} {np nn : Nat} {coords : List Rat} {qs : List (List Int)} (hl : 3 * np ≤ coords.length)
    (hits : its.take (4 * qs.length) = qs.flatten) (hnn : nn = np + qs.length) (hq : ∀ q ∈ qs, GoodQuad np (ptOf coords) q) :
    ∃ c, intersectionCoordinates J its np nn coords = .ok c ∧ c.length = 3 * nn ∧ (∀ k, k < np → ptOf c k = ptOf coords k) ∧
      ∀ m (k0 k1 k2 k3 : Nat), qs[m]? = some [(k0 : Int), (k1 : Int), (k2 : Int), (k3 : Int)] →
        CrossPoint (ptOf coords k0) (ptOf coords k1) (ptOf coords k2) (ptOf coords k3) (ptOf c (np + m)) := by
  have hbuf : (realloc J.r coords (3 * nn)).take (3 * np) = coords.take (3 * np) := take_realloc hl (by omega)
  have htl : (coords.take (3 * np)).length = 3 * np := by rw [List.length_take]; omega
  have hfour : ∀ q ∈ qs, (id q).length = 4 := by
    intro q h
    obtain ⟨_, _, _, _, e, _⟩ := hq q h
    rw [e]; rfl
  unfold intersectionCoordinates
  rw [show nn - np = qs.length by omega]
  obtain ⟨r, e, pts, hp1, hp2, hp3⟩ := loop_inv (n := qs.length) (s := ({ buf := realloc J.r coords (3 * nn), pos := 3 * np } : Cur Rat))
    (f := fun k (p : Cur Rat) => do
      let pt ← intersectionPt (fun t => rd its (4 * k + t)) p.buf
      p.puts pt)
    (fun k (p : Cur Rat) => ∃ pts : List Pt, pts.length = k ∧ p.Rep (3 * nn) (coords.take (3 * np) ++ ptCoords pts) ∧
      ∀ (m : Nat) (p : Pt) (k0 k1 k2 k3 : Nat), pts[m]? = some p → qs[m]? = some [(k0 : Int), (k1 : Int), (k2 : Int), (k3 : Int)] →
        CrossPoint (ptOf coords k0) (ptOf coords k1) (ptOf coords k2) (ptOf coords k3) p)
    ⟨[], rfl, ⟨by rw [ptCoords, List.flatMap_nil, List.append_nil, htl], length_realloc .., by rw [ptCoords, List.flatMap_nil, List.append_nil, htl, hbuf]⟩,
      by intro m p k0 k1 k2 k3 h; cases h⟩ (by
      rintro k p hk ⟨pts, hpl, hrep, hcp⟩
      have hqk : qs[k]? = some qs[k] := List.getElem?_eq_getElem hk
      obtain ⟨k0, k1, k2, k3, eq, l0, l1, l2, l3, hz⟩ := hq qs[k] (List.getElem_mem hk)
      have hrd : ∀ t, t < 4 → rd its (4 * k + t) = .ok ([(k0 : Int), (k1 : Int), (k2 : Int), (k3 : Int)].getD t 0) := by
        intro t ht
        apply rd_of_getElem?
        rw [← List.getElem?_take_of_lt (show 4 * k + t < 4 * qs.length by omega), hits, ← List.flatMap_id, getElem?_flatMap_const hfour hqk ht, eq]
        have h4 : t = 0 ∨ t = 1 ∨ t = 2 ∨ t = 3 := by omega
        rcases h4 with rfl | rfl | rfl | rfl <;> rfl
      have hbl : p.buf.length = 3 * nn := hrep.2.1
      have hpt : ∀ m, m < np → ptOf p.buf m = ptOf coords m := by
        intro m hm
        refine ptOf_take ?_ hm
        have h1 := congrArg (List.take (3 * np)) hrep.2.2
        rw [List.take_take, Nat.min_eq_left (by rw [List.length_append, htl]; omega), List.take_append_of_le_length (by omega), List.take_take, Nat.min_self] at h1
        exact h1
      obtain ⟨pt, ept, hcross⟩ := intersectionPt_ok (L := fun t => rd its (4 * k + t)) (c := p.buf) (hrd 0 (by omega)) (hrd 1 (by omega)) (hrd 2 (by omega)) (hrd 3 (by omega))
        (by omega) (by omega) (by omega) (by omega) (by rw [hpt k0 l0, hpt k1 l1, hpt k2 l2, hpt k3 l3]; exact hz)
      rw [hpt k0 l0, hpt k1 l1, hpt k2 l2, hpt k3 l3] at hcross
      rw [ept, bind_ok]
      obtain ⟨p', ep, hrep'⟩ := Cur.puts_rep [pt.x, pt.y, pt.z] hrep (by
        rw [List.length_append, htl, length_ptCoords]
        show _ + 3 ≤ _
        omega)
      rw [ep]
      refine ⟨_, rfl, pts ++ [pt], by rw [List.length_append, hpl]; rfl, ?_, ?_⟩
      · unfold ptCoords
        rw [List.flatMap_append, ← List.append_assoc]
        exact hrep'
      · intro m p1 j0 j1 j2 j3 hm hqm
        rcases Nat.lt_or_ge m pts.length with hlt | hge
        · rw [List.getElem?_append_left hlt] at hm
          exact hcp m p1 j0 j1 j2 j3 hm hqm
        · have hmk : m = k := by
            have := (List.getElem?_eq_some_iff.1 hm).1
            rw [List.length_append, List.length_singleton] at this
            omega
          subst hmk
          rw [List.getElem?_append_right hge, show m - pts.length = 0 by omega] at hm
          cases hm
          rw [hqk, eq] at hqm
          simp only [Option.some.injEq, List.cons.injEq, Nat.cast_inj, and_true] at hqm
          obtain ⟨rfl, rfl, rfl, rfl⟩ := hqm
          exact hcross)
  rw [e, bind_ok]
  refine ⟨_, rfl, hp2.2.1, ?_, ?_⟩
  · intro k hk
    refine ptOf_take ?_ hk
    have h1 := congrArg (List.take (3 * np)) hp2.2.2
    rw [List.take_take, Nat.min_eq_left (by rw [List.length_append, htl]; omega), List.take_append_of_le_length (by omega), List.take_take, Nat.min_self] at h1
    exact h1
  · intro m k0 k1 k2 k3 hm
    have hlt : m < pts.length := by rw [hp1]; exact (List.getElem?_eq_some_iff.1 hm).1
    have hg : pts[m]? = some pts[m] := List.getElem?_eq_getElem hlt
    rw [ptOf_append htl hp2.2.2 hlt hg]
    exact hp3 m _ k0 k1 k2 k3 hg hm

/-! ### Reflections -/

/-- A point with coordinate `d` multiplied by `f`. -/
def Pt.scale (d : Nat) (f : Rat) (p : Pt) : Pt := if d = 0 then ⟨f * p.x, p.y, p.z⟩ else if d = 1 then ⟨p.x, f * p.y, p.z⟩ else ⟨p.x, p.y, f * p.z⟩

theorem scaleCoord_ok {d nn : Nat} (hd : d < 3) (f : Rat) {c : List Rat} (hl : 3 * nn ≤ c.length) :
    ∃ c', scaleCoord d f nn c = .ok c' ∧ c'.length = c.length ∧ ∀ k, k < nn → ptOf c' k = (ptOf c k).scale d f := by
  obtain ⟨c', e, h1, h2, h3⟩ := loop_inv (n := nn) (s := c)
    (f := fun i (c : List Rat) => do
      let v ← rd c (3 * i + d)
      wr c (3 * i + d) (f * v))
    (fun i (b : List Rat) => b.length = c.length ∧ (∀ t, (t % 3 ≠ d ∨ 3 * i ≤ t) → b.getD t 0 = c.getD t 0) ∧ ∀ k, k < i → b.getD (3 * k + d) 0 = f * c.getD (3 * k + d) 0)
    ⟨rfl, fun _ _ => rfl, fun k hk => by omega⟩ (by
      rintro i b hi ⟨g1, g2, g3⟩
      have hlt : 3 * i + d < b.length := by omega
      have hg : b[3 * i + d]? = some (c.getD (3 * i + d) 0) := by
        rw [← g2 (3 * i + d) (Or.inr (by omega)), List.getD_eq_getElem?_getD, List.getElem?_eq_getElem hlt]
        rfl
      rw [rd_of_getElem? hg, bind_ok, wr_ok hlt]
      refine ⟨_, rfl, by rw [List.length_set]; exact g1, ?_, ?_⟩
      · intro t ht
        rw [getD_set' hlt, if_neg (by omega)]
        exact g2 t (by omega)
      · intro k hk
        rw [getD_set' hlt]
        split
        · rename_i he
          obtain rfl : k = i := by omega
          rfl
        · exact g3 k (by omega))
  refine ⟨c', e, h1, ?_⟩
  intro k hk
  have h01 : d = 0 ∨ d = 1 ∨ d = 2 := by omega
  unfold ptOf Pt.scale
  rcases h01 with rfl | rfl | rfl
  · have := h3 k hk
    rw [Nat.add_zero] at this
    rw [this, h2 (3 * k + 1) (Or.inl (by omega)), h2 (3 * k + 2) (Or.inl (by omega))]
    rfl
  · rw [h3 k hk, h2 (3 * k) (Or.inl (by omega)), h2 (3 * k + 2) (Or.inl (by omega))]
    rfl
  · rw [h3 k hk, h2 (3 * k) (Or.inl (by omega)), h2 (3 * k + 1) (Or.inl (by omega))]
    rfl

end Opm.Cpg
