import Verif.Spec.GridInspector
import Mathlib.Tactic.Ring
import Mathlib.Tactic.Linarith
import Mathlib.Tactic.FieldSimp
import Mathlib.Data.Set.Insert
import Mathlib.Data.List.Induction
/-!
# Lemmas on the inspection of corner-point grids
-/

namespace Opm.GridInspector
open Opm

theorem index_lt {x y z A B C : Nat} (hx : x < A) (hy : y < B) (hz : z < C) : x + A * (y + B * z) < A * (B * C) := by
  have h1 : y + B * z < B * C := by
    have := Nat.mul_le_mul_left B (show z + 1 ≤ C from hz)
    rw [Nat.mul_add, Nat.mul_one] at this
    omega
  have h2 := Nat.mul_le_mul_left A (show (y + B * z) + 1 ≤ B * C from h1)
  rw [Nat.mul_add A, Nat.mul_one] at h2
  omega

theorem rd_getD {l : List Rat} {n : Nat} (h : n < l.length) : rd l n = .ok (l.getD n 0) := by
  rw [rd_ok h]; simp [List.getD, h]

variable {I : Inspector}

theorem corner_lt (W : WellSized I) {i j k a b c : Nat} (hi : i < I.nx) (hj : j < I.ny) (hk : k < I.nz)
    (ha : a ≤ 1) (hb : b ≤ 1) (hc : c ≤ 1) :
    (2 * i + a) + 2 * I.nx * ((2 * j + b) + 2 * I.ny * (2 * k + c)) < I.zcorn.length := by
  have := index_lt (show 2 * i + a < 2 * I.nx by omega) (show 2 * j + b < 2 * I.ny by omega) (show 2 * k + c < 2 * I.nz by omega)
  rw [W.zcorn]
  have e : 2 * I.nx * (2 * I.ny * (2 * I.nz)) = 8 * (I.nx * I.ny * I.nz) := by ring
  omega

theorem rd_corner (W : WellSized I) {i j k a b c n : Nat} (hi : i < I.nx) (hj : j < I.ny) (hk : k < I.nz)
    (ha : a ≤ 1) (hb : b ≤ 1) (hc : c ≤ 1)
    (hn : n = (2 * i + a) + 2 * I.nx * ((2 * j + b) + 2 * I.ny * (2 * k + c))) :
    rd I.zcorn n = .ok (cornerZ I i j k a b c) := by
  subst hn
  exact rd_getD (corner_lt W hi hj hk ha hb hc)

theorem cornerDepths_ok (W : WellSized I) {i j k : Nat} (hi : i < I.nx) (hj : j < I.ny) (hk : k < I.nz) :
    cornerDepths I i j k = .ok [cornerZ I i j k 0 0 0, cornerZ I i j k 1 0 0, cornerZ I i j k 0 1 0, cornerZ I i j k 1 1 0,
      cornerZ I i j k 0 0 1, cornerZ I i j k 1 0 1, cornerZ I i j k 0 1 1, cornerZ I i j k 1 1 1] := by
  unfold cornerDepths
  simp only []
  rw [rd_corner W (a := 0) (b := 0) (c := 0) hi hj hk (by omega) (by omega) (by omega) (by ring),
    rd_corner W (a := 1) (b := 0) (c := 0) hi hj hk (by omega) (by omega) (by omega) (by ring),
    rd_corner W (a := 0) (b := 1) (c := 0) hi hj hk (by omega) (by omega) (by omega) (by ring),
    rd_corner W (a := 1) (b := 1) (c := 0) hi hj hk (by omega) (by omega) (by omega) (by ring),
    rd_corner W (a := 0) (b := 0) (c := 1) hi hj hk (by omega) (by omega) (by omega) (by ring),
    rd_corner W (a := 1) (b := 0) (c := 1) hi hj hk (by omega) (by omega) (by omega) (by ring),
    rd_corner W (a := 0) (b := 1) (c := 1) hi hj hk (by omega) (by omega) (by omega) (by ring),
    rd_corner W (a := 1) (b := 1) (c := 1) hi hj hk (by omega) (by omega) (by omega) (by ring)]
  rfl

theorem pillar_lt (W : WellSized I) {i j m : Nat} (hi : i ≤ I.nx) (hj : j ≤ I.ny) (hm : m < 6) :
    6 * (i + (I.nx + 1) * j) + m < I.coord.length := by
  have := index_lt (show i < I.nx + 1 by omega) (show j < I.ny + 1 by omega) (show 0 < 1 by omega)
  rw [W.coord]
  simp only [Nat.mul_zero, Nat.add_zero, Nat.mul_one] at this
  omega

theorem rd_x (W : WellSized I) {i j n : Nat} (hi : i ≤ I.nx) (hj : j ≤ I.ny) (hn : n = 6 * (i + (I.nx + 1) * j)) :
    rd I.coord n = .ok (pillarX I i j) := by
  subst hn
  exact rd_getD (pillar_lt (m := 0) W hi hj (by omega))

theorem rd_y (W : WellSized I) {i j n : Nat} (hi : i ≤ I.nx) (hj : j ≤ I.ny) (hn : n = 6 * (i + (I.nx + 1) * j) + 1) :
    rd I.coord n = .ok (pillarY I i j) := by
  subst hn
  exact rd_getD (pillar_lt (m := 1) W hi hj (by omega))

theorem checkCoords_ok {i j k : Nat} (hi : i < I.nx) (hj : j < I.ny) (hk : k < I.nz) : checkCoords I i j k = .ok () := by
  unfold checkCoords
  rw [if_neg (by omega), if_neg (by omega), if_neg (by omega)]

theorem checkSizes_ok (W : WellSized I) : checkSizes I = .ok () := by
  unfold checkSizes
  rw [if_neg (by simp [W.coord]), if_neg (by simp [W.zcorn])]

/-- The state of the search for the least and the greatest value, when the values in `S` have been seen. -/
def Seen (S : Set Rat) (s : Option (Rat × Rat)) : Prop :=
  (s = none ∧ S = ∅) ∨ ∃ r, s = some r ∧ Range S r

theorem seen_widen {S : Set Rat} {s : Option (Rat × Rat)} (h : Seen S s) (v : Rat) :
    ∃ r, widen s v = some r ∧ Range (insert v S) r := by
  rcases h with ⟨h, rfl⟩ | ⟨⟨lo, hi⟩, h, hr⟩
  · subst h
    exact ⟨(v, v), rfl, by simp [Range, IsLeast, IsGreatest, lowerBounds, upperBounds]⟩
  · subst h
    refine ⟨_, rfl, ?_, ?_⟩
    · have := hr.1.insert v
      simp only []
      split
      · rw [min_eq_left (by linarith)] at this; exact this
      · rw [min_eq_right (by linarith)] at this; exact this
    · have := hr.2.insert v
      simp only []
      split
      · rw [max_eq_left (by linarith)] at this; exact this
      · rw [max_eq_right (by linarith)] at this; exact this

theorem seen_foldl (l : List Rat) : Seen {z | z ∈ l} (l.foldl widen none) := by
  induction l using List.reverseRecOn with
  | nil => left; exact ⟨rfl, by simp⟩
  | append_singleton l v ih =>
    obtain ⟨r, h1, h2⟩ := seen_widen ih v
    right
    refine ⟨r, by rw [List.foldl_append]; exact h1, ?_⟩
    have e : {z | z ∈ l ++ [v]} = insert v {z | z ∈ l} := by
      ext z; simp [or_comm]
    rw [e]; exact h2

/-- The x-coordinates (`m = 0`) or y-coordinates (`m = 1`) of the first `n` pillars. -/
def firstVals (I : Inspector) (m n : Nat) : Set Rat :=
  {x | ∃ p, p < n ∧ (I.coord[6 * p + m]? = some x ∨ I.coord[6 * p + (m + 3)]? = some x)}

theorem firstVals_succ {m n : Nat} {u v : Rat} (hu : I.coord[6 * n + m]? = some u) (hv : I.coord[6 * n + (m + 3)]? = some v) :
    firstVals I m (n + 1) = insert v (insert u (firstVals I m n)) := by
  ext x
  simp only [firstVals, Set.mem_ofPred_eq, Set.mem_insert_iff]
  constructor
  · rintro ⟨p, hp, h⟩
    by_cases e : p = n
    · subst e
      rw [hu, hv] at h
      rcases h with h | h
      · right; left; exact (Option.some.inj h).symm
      · left; exact (Option.some.inj h).symm
    · exact Or.inr (Or.inr ⟨p, by omega, h⟩)
  · rintro (rfl | rfl | ⟨p, hp, h⟩)
    · exact ⟨n, by omega, Or.inr hv⟩
    · exact ⟨n, by omega, Or.inl hu⟩
    · exact ⟨p, by omega, h⟩

theorem seen_two {S : Set Rat} {s : Option (Rat × Rat)} (h : Seen S s) (u v : Rat) : Seen (insert v (insert u S)) (widen (widen s u) v) := by
  obtain ⟨r, e, hr⟩ := seen_widen h u
  obtain ⟨r', e', hr'⟩ := seen_widen (Or.inr ⟨r, e, hr⟩) v
  exact Or.inr ⟨r', e', hr'⟩

theorem pillars_ok (hc : I.coord.length = 6 * ((I.nx + 1) * (I.ny + 1))) :
    ∃ x y, loop ((I.nx + 1) * (I.ny + 1)) (addPillar I) (none, none) = .ok (some x, some y) ∧ Range (xs I) x ∧ Range (ys I) y := by
  obtain ⟨s, hs, hx, hy⟩ := loop_inv (n := (I.nx + 1) * (I.ny + 1)) (f := addPillar I) (s := (none, none))
    (fun n s => Seen (firstVals I 0 n) s.1 ∧ Seen (firstVals I 1 n) s.2)
    ⟨Or.inl ⟨rfl, by ext x; simp [firstVals]⟩, Or.inl ⟨rfl, by ext x; simp [firstVals]⟩⟩
    (by
      intro n s hn hP
      have g : ∀ m, m < 6 → I.coord[6 * n + m]? = some (I.coord.getD (6 * n + m) 0) := by
        intro m hm
        have : 6 * n + m < I.coord.length := by omega
        simp [List.getD, this]
      refine ⟨(widen (widen s.1 (I.coord.getD (6 * n + 0) 0)) (I.coord.getD (6 * n + 3) 0),
        widen (widen s.2 (I.coord.getD (6 * n + 1) 0)) (I.coord.getD (6 * n + 4) 0)), ?_, ?_, ?_⟩
      · unfold addPillar
        rw [show n * 6 = 6 * n by ring, rd_of_getElem? (show I.coord[6 * n]? = some (I.coord.getD (6 * n + 0) 0) from g 0 (by omega)), rd_of_getElem? (g 1 (by omega)),
          rd_of_getElem? (g 3 (by omega)), rd_of_getElem? (g 4 (by omega))]
        rfl
      · rw [firstVals_succ (g 0 (by omega)) (g 3 (by omega))]
        exact seen_two hP.1 _ _
      · rw [firstVals_succ (g 1 (by omega)) (g 4 (by omega))]
        exact seen_two hP.2 _ _)
  have pos : 0 < (I.nx + 1) * (I.ny + 1) := Nat.mul_pos (by omega) (by omega)
  have ne : ∀ m, m < 6 → I.coord.getD m 0 ∈ firstVals I m ((I.nx + 1) * (I.ny + 1)) := by
    intro m hm
    refine ⟨0, pos, Or.inl ?_⟩
    have : m < I.coord.length := by omega
    simp [List.getD, this]
  rcases hx with ⟨_, hx⟩ | ⟨x, hx, hx'⟩
  · exact absurd (ne 0 (by omega)) (by rw [hx]; simp)
  rcases hy with ⟨_, hy⟩ | ⟨y, hy, hy'⟩
  · exact absurd (ne 1 (by omega)) (by rw [hy]; simp)
  exact ⟨x, y, by rw [hs, ← hx, ← hy], hx', hy'⟩

theorem gridLimits_ok (hc : I.coord.length = 6 * ((I.nx + 1) * (I.ny + 1))) (hz : I.zcorn ≠ []) (hs : I.specgrid = true) :
    ∃ r, gridLimits I = .ok r ∧ Range (xs I) r.1 ∧ Range (ys I) r.2.1 ∧ Range {z | z ∈ I.zcorn} r.2.2 := by
  obtain ⟨x, y, h, hx, hy⟩ := pillars_ok hc
  rcases seen_foldl I.zcorn with ⟨_, e⟩ | ⟨z, e, hz'⟩
  · obtain ⟨v, l, hl⟩ := List.exists_cons_of_ne_nil hz
    have : v ∈ {z | z ∈ I.zcorn} := by rw [hl]; simp
    rw [e] at this
    exact absurd this (by simp)
  · refine ⟨(x, y, z), ?_, hx, hy, hz'⟩
    unfold gridLimits
    rw [if_neg (by simp [hs]), h]
    simp only [bind_ok, e]

theorem edge_ok {z : List Rat} {length limit : Rat} {a b : Nat} (h : length ≠ 0) :
    edge z length limit a b = .ok (if z.getD a 0 = limit ∨ z.getD b 0 = limit then (0, 0) else ((z.getD b 0 - z.getD a 0) / length, 1)) := by
  unfold edge
  split
  · rfl
  · rw [fdiv_ok h]; rfl

theorem counts_top {v w lo : Rat} {S : Set Rat} (h : IsLeast S lo) : (¬IsLeast S v ∧ ¬IsLeast S w) ↔ ¬(v = lo ∨ w = lo) := by
  have e : ∀ u, IsLeast S u ↔ u = lo := fun u => ⟨fun g => g.unique h, fun g => g ▸ h⟩
  rw [e, e]; tauto

theorem counts_bottom {v w hi : Rat} {S : Set Rat} (h : IsGreatest S hi) : (¬IsGreatest S v ∧ ¬IsGreatest S w) ↔ ¬(v = hi ∨ w = hi) := by
  have e : ∀ u, IsGreatest S u ↔ u = hi := fun u => ⟨fun g => g.unique h, fun g => g ▸ h⟩
  rw [e, e]; tauto

theorem logical_of {nx ny i j k : Nat} (hi : i < nx) (hj : j < ny) (hI : I.nx = nx) (hJ : I.ny = ny) :
    logicalCoords I (i + nx * (j + ny * k)) = .ok (i, j, k) := by
  have pos : 0 < nx * ny := Nat.mul_pos (by omega) (by omega)
  have top : nx * (j + 1) ≤ nx * ny := Nat.mul_le_mul_left nx hj
  have e1 : nx * (j + ny * k) = nx * j + nx * ny * k := by ring
  have e2 : nx * (j + 1) = nx * j + nx := by ring
  generalize hN : nx * ny = N at *
  have hh : (if (i + nx * (j + ny * k) + 1) - ((i + nx * (j + ny * k) + 1) / N) * nx * ny = 0 then N
      else (i + nx * (j + ny * k) + 1) - ((i + nx * (j + ny * k) + 1) / N) * nx * ny) = i + 1 + nx * j := by
    rw [Nat.mul_assoc _ nx ny, hN, e1]
    by_cases c : i + 1 + nx * j = N
    · have q : (i + (nx * j + N * k) + 1) / N = k + 1 := by
        rw [show i + (nx * j + N * k) + 1 = 0 + N * (k + 1) by rw [← c]; ring, Nat.add_mul_div_left _ _ pos]; simp
      rw [q, if_pos (by rw [Nat.add_mul, Nat.mul_comm k N]; omega), c]
    · have q : (i + (nx * j + N * k) + 1) / N = k := by
        rw [show i + (nx * j + N * k) + 1 = (i + 1 + nx * j) + N * k by ring, Nat.add_mul_div_left _ _ pos,
          Nat.div_eq_of_lt (by omega)]; simp
      rw [q, Nat.mul_comm k N, if_neg (by omega)]
      omega
  have hi' : (if (i + 1 + nx * j) - ((i + 1 + nx * j) / nx) * nx = 0 then nx
      else (i + 1 + nx * j) - ((i + 1 + nx * j) / nx) * nx) = i + 1 := by
    rw [Nat.add_mul_div_left _ _ (by omega : 0 < nx), Nat.add_mul, Nat.mul_comm j nx]
    by_cases c : i + 1 = nx
    · rw [c, Nat.div_self (by omega)]
      simp
    · rw [Nat.div_eq_of_lt (by omega : i + 1 < nx), if_neg (by omega)]
      omega
  unfold logicalCoords
  simp only [hI, hJ, hN]
  rw [if_neg (by omega), hh, hi']
  have hj' : (i + 1 + nx * j - (i + 1)) / nx = j := by
    rw [Nat.add_sub_cancel_left, Nat.mul_div_cancel_left _ (by omega)]
  rw [hj']
  have hk : (i + nx * (j + ny * k) + 1 - nx * (j + 1 - 1) - 1) / N = k := by
    rw [e1, show i + (nx * j + N * k) + 1 - nx * (j + 1 - 1) - 1 = i + N * k by simp only [Nat.add_sub_cancel]; omega,
      Nat.add_mul_div_left _ _ pos, Nat.div_eq_of_lt (by omega)]
    simp
  rw [hk]
  rfl

end Opm.GridInspector
