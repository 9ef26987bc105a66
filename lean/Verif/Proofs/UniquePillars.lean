import Verif.Proofs.UniqueList
import Mathlib.Algebra.BigOperators.Group.Finset.Basic
import Mathlib.Algebra.Order.BigOperators.Group.Finset
import Mathlib.Tactic.Ring
import Mathlib.Tactic.FieldSimp
/-! # Points on pillars: the loop over the pillars -/

namespace Opm.UniquePoints
open Opm

/-- The two columns next to pillar `i`, of `m` columns. -/
def side (m i t : Nat) : Nat := if t = 0 then max 1 (2 * i) - 1 else min m (2 * i + 1) - 1

theorem side_lt {n i : Nat} (hn : 0 < n) (hi : i ≤ n) (t : Nat) : side (2 * n) i t < 2 * n := by
  unfold side; split <;> omega

theorem side_pillar {n i : Nat} (_hn : 0 < n) (hi : i ≤ n) (t : Nat) : (side (2 * n) i t + 1) / 2 = i := by
  unfold side; split <;> omega

theorem side_surj {n i I : Nat} (hI : I < 2 * n) (h : (I + 1) / 2 = i) : ∃ t, t < 2 ∧ side (2 * n) i t = I := by
  unfold side
  rcases Nat.even_or_odd' I with ⟨k, h' | h'⟩
  · exact ⟨1, by omega, by simp only [Nat.one_ne_zero, if_false]; omega⟩
  · exact ⟨0, by omega, by simp only [if_true]; omega⟩

/-- Where the four columns next to pillar `(i, j)` begin in the depths. -/
def zBeg (g : Grdecl) (i j t : Nat) : Nat := 2 * g.nz * (side (2 * g.nx) i (t / 2) + 2 * g.nx * side (2 * g.ny) j (t % 2))

/-- Where they begin in the activity flags. -/
def aBeg (g : Grdecl) (i j t : Nat) : Nat := g.nz * (side (2 * g.nx) i (t / 2) / 2 + g.nx * (side (2 * g.ny) j (t % 2) / 2))

theorem positions_z {g : Grdecl} (hx : 0 < g.nx) (hy : 0 < g.ny) {i j : Nat} (hi : i ≤ g.nx) (hj : j ≤ g.ny) {t : Nat} (ht : t < 4) :
    (vectorPositions (2 * g.nx) (2 * g.ny) (2 * g.nz) (2 * i) (2 * j))[t]? = some (zBeg g i j t : Int) := by
  have e1 : max 1 ((2 * i : Nat) : Int) - 1 = (side (2 * g.nx) i 0 : Int) := by simp only [side, if_true]; omega
  have e2 : max 1 ((2 * j : Nat) : Int) - 1 = (side (2 * g.ny) j 0 : Int) := by simp only [side, if_true]; omega
  have e3 : min ((2 * g.nx : Nat) : Int) ((2 * i : Nat) + 1) - 1 = (side (2 * g.nx) i 1 : Int) := by simp only [side, Nat.one_ne_zero, if_false]; omega
  have e4 : min ((2 * g.ny : Nat) : Int) ((2 * j : Nat) + 1) - 1 = (side (2 * g.ny) j 1 : Int) := by simp only [side, Nat.one_ne_zero, if_false]; omega
  unfold vectorPositions zBeg
  simp only [e1, e2, e3, e4]
  match t, ht with
  | 0, _ => simp
  | 1, _ => simp
  | 2, _ => simp
  | 3, _ => simp

theorem positions_a {g : Grdecl} (hx : 0 < g.nx) (hy : 0 < g.ny) {i j : Nat} (hi : i ≤ g.nx) (hj : j ≤ g.ny) {t : Nat} (ht : t < 4) :
    (vectorPositions g.nx g.ny g.nz i j)[t]? = some (aBeg g i j t : Int) := by
  have e1 : max 1 (i : Int) - 1 = ((side (2 * g.nx) i 0 / 2 : Nat) : Int) := by simp only [side, if_true]; omega
  have e2 : max 1 (j : Int) - 1 = ((side (2 * g.ny) j 0 / 2 : Nat) : Int) := by simp only [side, if_true]; omega
  have e3 : min (g.nx : Int) (i + 1) - 1 = ((side (2 * g.nx) i 1 / 2 : Nat) : Int) := by simp only [side, Nat.one_ne_zero, if_false]; omega
  have e4 : min (g.ny : Int) (j + 1) - 1 = ((side (2 * g.ny) j 1 / 2 : Nat) : Int) := by simp only [side, Nat.one_ne_zero, if_false]; omega
  unfold vectorPositions aBeg
  simp only [e1, e2, e3, e4]
  match t, ht with
  | 0, _ => simp
  | 1, _ => simp
  | 2, _ => simp
  | 3, _ => simp

theorem zcorn_lt {g : Grdecl} (hg : g.Ok) {I J K : Nat} (h : g.Corner I J K) : 2 * g.nz * (I + 2 * g.nx * J) + K < g.zcorn.length := by
  obtain ⟨h1, h2, h3⟩ := h
  rw [hg.zcorn]
  have : I + 2 * g.nx * J < 2 * g.nx * (2 * g.ny) := by
    have := Nat.mul_le_mul_left (2 * g.nx) (Nat.succ_le_of_lt h2)
    rw [Nat.mul_succ] at this
    omega
  have := Nat.mul_le_mul_left (2 * g.nz) (Nat.succ_le_of_lt this)
  rw [Nat.mul_succ] at this
  calc 2 * g.nz * (I + 2 * g.nx * J) + K < 2 * g.nz * (2 * g.nx * (2 * g.ny)) := by omega
    _ = _ := by ring

theorem actnum_lt {g : Grdecl} (hg : g.Ok) {I J K : Nat} (h : g.Corner I J K) : g.nz * (I / 2 + g.nx * (J / 2)) + K / 2 < g.actnum.length := by
  obtain ⟨h1, h2, h3⟩ := h
  rw [hg.actnum]
  have : I / 2 + g.nx * (J / 2) < g.nx * g.ny := by
    have := Nat.mul_le_mul_left g.nx (show J / 2 + 1 ≤ g.ny by omega)
    rw [Nat.mul_succ] at this
    omega
  have := Nat.mul_le_mul_left g.nz (Nat.succ_le_of_lt this)
  rw [Nat.mul_succ] at this
  calc g.nz * (I / 2 + g.nx * (J / 2)) + K / 2 < g.nz * (g.nx * g.ny) := by omega
    _ = _ := by ring

/-- The depths collected for pillar `(i, j)` are those of the active corners on it. -/
theorem collected_iff {g : Grdecl} (hg : g.Ok) {i j : Nat} (hi : i ≤ g.nx) (hj : j ≤ g.ny) (v : Rat) :
    (∃ K t, K < 2 * g.nz ∧ t < 4 ∧ g.actnum.getD (aBeg g i j t + K / 2) 0 ≠ 0 ∧ g.zcorn.getD (zBeg g i j t + K) 0 = v) ↔
      g.DepthOn (i + (g.nx + 1) * j) v := by
  constructor
  · rintro ⟨K, t, hK, ht, h1, h2⟩
    refine ⟨side (2 * g.nx) i (t / 2), side (2 * g.ny) j (t % 2), K, ⟨side_lt hg.nx hi _, side_lt hg.ny hj _, hK⟩, h1, ?_, h2⟩
    unfold Grdecl.pillarOf
    rw [side_pillar hg.nx hi, side_pillar hg.ny hj]
  · rintro ⟨I, J, K, ⟨hI, hJ, hK⟩, h1, h2, h3⟩
    unfold Grdecl.pillarOf at h2
    have hI2 : (I + 1) / 2 < g.nx + 1 := by omega
    have : (I + 1) / 2 = i ∧ (J + 1) / 2 = j := by
      have hm := congrArg (· % (g.nx + 1)) h2
      have hd := congrArg (· / (g.nx + 1)) h2
      simp only [Nat.add_mul_mod_self_left, Nat.mod_eq_of_lt hI2, Nat.mod_eq_of_lt (show i < g.nx + 1 by omega)] at hm
      simp only [Nat.add_mul_div_left _ _ (Nat.succ_pos g.nx), Nat.div_eq_of_lt hI2, Nat.div_eq_of_lt (show i < g.nx + 1 by omega), Nat.zero_add] at hd
      exact ⟨hm, hd⟩
    obtain ⟨a, ha, ea⟩ := side_surj hI this.1
    obtain ⟨b, hb, eb⟩ := side_surj hJ this.2
    refine ⟨K, 2 * a + b, hK, by omega, ?_, ?_⟩
    · unfold aBeg
      rw [show (2 * a + b) / 2 = a by omega, show (2 * a + b) % 2 = b by omega, ea, eb]
      exact h1
    · unfold zBeg
      rw [show (2 * a + b) / 2 = a by omega, show (2 * a + b) % 2 = b by omega, ea, eb]
      exact h3

/-- All corners. -/
def corners (g : Grdecl) : Finset (Nat × Nat × Nat) := Finset.range (2 * g.nx) ×ˢ Finset.range (2 * g.ny) ×ˢ Finset.range (2 * g.nz)

/-- The number of corners on pillar `q`. -/
def cornersOn (g : Grdecl) (q : Nat) : Nat := ((corners g).filter (fun c => g.pillarOf c.1 c.2.1 = q)).card

theorem sum_cornersOn (g : Grdecl) (n : Nat) : ∑ q ∈ Finset.range n, cornersOn g q ≤ 8 * (g.nx * g.ny * g.nz) := by
  unfold cornersOn
  rw [Finset.sum_card_fiberwise_eq_card_filter]
  refine le_trans (Finset.card_filter_le _ _) ?_
  unfold corners
  simp only [Finset.card_product, Finset.card_range]
  exact le_of_eq (by ring)

/-- A list of numbers more than `tol` apart, all depths on pillar `q`, is no longer than the number of corners there. -/
theorem length_le_cornersOn {g : Grdecl} {q : Nat} {tol : Rat} (ht : 0 ≤ tol) {u : List Rat} (h : ∀ k, k + 1 < u.length → u.getD k 0 + tol < u.getD (k + 1) 0)
    (hm : ∀ x, x ∈ u → g.DepthOn q x) : u.length ≤ cornersOn g q := by
  have hlt : ∀ a b, a < b → b < u.length → u.getD a 0 < u.getD b 0 := by
    intro a b hab hb
    have h1 := h (b - 1) (by omega)
    have h2 := apart_mono ht h (show a ≤ b - 1 by omega) (by omega)
    rw [show b - 1 + 1 = b by omega] at h1
    linarith
  have hnd : u.Nodup := by
    rw [List.nodup_iff_injective_getElem]
    intro a b hab
    have e : ∀ c : Fin u.length, u[c] = u.getD c 0 := by
      intro c
      rw [List.getD_eq_getElem?_getD, List.getElem?_eq_getElem c.2]
      rfl
    have hab : u.getD a 0 = u.getD b 0 := by
      rw [← e a, ← e b]; exact hab
    rcases Nat.lt_trichotomy a.1 b.1 with h' | h' | h'
    · exact absurd hab (ne_of_lt (hlt _ _ h' b.2))
    · exact Fin.ext h'
    · exact absurd hab (ne_of_gt (hlt _ _ h' a.2))
  rw [← List.toFinset_card_of_nodup hnd]
  unfold cornersOn
  refine le_trans (Finset.card_le_card (t := ((corners g).filter (fun c => g.pillarOf c.1 c.2.1 = q)).image (fun c => g.depth c.1 c.2.1 c.2.2)) ?_) Finset.card_image_le
  intro x hx
  obtain ⟨I, J, K, ⟨h1, h2, h3⟩, _, hp, hd⟩ := hm x (List.mem_toFinset.1 hx)
  rw [Finset.mem_image]
  refine ⟨(I, J, K), ?_, hd⟩
  rw [Finset.mem_filter]
  refine ⟨?_, hp⟩
  unfold corners
  simp [h1, h2, h3]

/-- The depths of point lists `Us`, one list per pillar, are good. -/
def UsOk (g : Grdecl) (tol : Rat) (Us : List (List Rat)) : Prop := ∀ q u, Us[q]? = some u → (∀ k, k + 1 < u.length → u.getD k 0 + tol < u.getD (k + 1) 0) ∧
  (∀ x, x ∈ u → g.DepthOn q x) ∧ (∀ v, g.DepthOn q v → ∃ k, k < u.length ∧ u.getD k 0 - v ≤ tol ∧ v - u.getD k 0 ≤ tol) ∧
  ∀ v, g.DepthOn q v → v ≤ u.getD (u.length - 1) 0

/-- First point of pillar `q`. -/
def startOf (Us : List (List Rat)) (q : Nat) : Nat := (Us.take q).flatten.length

theorem startOf_le_sum {g : Grdecl} {tol : Rat} (ht : 0 ≤ tol) {Us : List (List Rat)} (h : UsOk g tol Us) :
    Us.flatten.length ≤ ∑ q ∈ Finset.range Us.length, cornersOn g q := by
  induction Us using List.reverseRecOn with
  | nil => simp
  | append_singleton Us u ih =>
    have h1 : UsOk g tol Us := fun q v e => h q v (by rw [List.getElem?_append_left (by by_contra hc; rw [List.getElem?_eq_none (by omega)] at e; cases e)]; exact e)
    obtain ⟨a1, a2, _⟩ := h Us.length u (by simp)
    have := length_le_cornersOn ht a1 a2
    rw [List.length_append, List.length_singleton, Finset.sum_range_succ, List.flatten_append, List.length_append]
    have := ih h1
    simp only [List.flatten_cons, List.flatten_nil, List.append_nil]
    omega

theorem length_flatten_le {g : Grdecl} {tol : Rat} (ht : 0 ≤ tol) {Us : List (List Rat)} (h : UsOk g tol Us) : Us.flatten.length ≤ 8 * (g.nx * g.ny * g.nz) :=
  le_trans (startOf_le_sum ht h) (sum_cornersOn g _)

/-- Invariant of the loop over the pillars, after `Us.length` of them. -/
structure PInv (g : Grdecl) (tol : Rat) (Us : List (List Rat)) (s : Pillars) : Prop where
  us : UsOk g tol Us
  zlen : s.zlist.length = 8 * (g.nx + 1) * (g.ny + 1) * g.nz
  zout : s.zout = Us.flatten.length
  small : s.zout ≤ 8 * g.nz * Us.length
  zlist : s.zlist.take s.zout = Us.flatten
  zplen : s.zptr.length = (g.nx + 1) * (g.ny + 1) + 1
  zptr : ∀ q, q ≤ Us.length → s.zptr[q]? = some (startOf Us q)
  pos : s.pos = Us.length + 1
  nlen : s.nodes.length = 3 * 8 * (g.nx * g.ny * g.nz)
  pt : s.pt = 3 * s.zout
  coord : s.coord = 6 * Us.length
  z : ∀ k, k < s.zout → s.nodes.getD (3 * k + 2) 0 = Us.flatten.getD k 0
  line : ∀ q k, q < Us.length → startOf Us q ≤ k → k < startOf Us (q + 1) →
    g.OnPillar q (s.nodes.getD (3 * k) 0) (s.nodes.getD (3 * k + 1) 0) (s.nodes.getD (3 * k + 2) 0)

theorem rdGet {α : Type} {l : List α} {d : α} {i : Nat} (h : i < l.length) : rd l i = .ok (l.getD i d) :=
  rd_of_getElem? (by rw [List.getElem?_eq_getElem h, List.getD_eq_getElem?_getD, List.getElem?_eq_getElem h]; rfl)

/-- The interpolated point lies on the pillar. -/
theorem interpolate_ok {g : Grdecl} {q pp : Nat} {nodes : List Rat} (hc : 6 * q + 6 ≤ g.coord.length) (hn : pp + 3 ≤ nodes.length) :
    ∃ x y, interpolatePillar g.coord (6 * q) nodes pp = .ok ((nodes.set pp x).set (pp + 1) y) ∧ g.OnPillar q x y (nodes.getD (pp + 2) 0) := by
  unfold interpolatePillar
  rw [rdGet (d := 0) (by omega), bind_ok, rdGet (d := 0) (by omega), bind_ok, rdGet (d := 0) (by omega), bind_ok]
  by_cases h : g.coord.getD (6 * q + 5) 0 - g.coord.getD (6 * q + 2) 0 ≠ 0
  · rw [if_pos h, fdiv_ok h]
    simp only [bind_ok]
    rw [rdGet (d := 0) (by omega), bind_ok, rdGet (d := 0) (by omega), bind_ok, wr_ok (by omega), bind_ok, rdGet (d := 0) (by omega), bind_ok,
      rdGet (d := 0) (by omega), bind_ok, wr_ok (by simp; omega)]
    refine ⟨_, _, rfl, (nodes.getD (pp + 2) 0 - g.coord.getD (6 * q + 2) 0) / (g.coord.getD (6 * q + 5) 0 - g.coord.getD (6 * q + 2) 0), by ring, by ring, ?_, ?_⟩
    · intro _
      rw [div_mul_cancel₀ _ h]
      ring
    · intro h'
      rw [h', sub_self] at h
      exact absurd rfl h
  · rw [if_neg h]
    simp only [bind_ok]
    rw [rdGet (d := 0) (by omega), bind_ok, rdGet (d := 0) (by omega), bind_ok, wr_ok (by omega), bind_ok, rdGet (d := 0) (by omega), bind_ok,
      rdGet (d := 0) (by omega), bind_ok, wr_ok (by simp; omega)]
    refine ⟨_, _, rfl, 0, by ring, by ring, ?_, fun _ => rfl⟩
    intro h'
    have : g.coord.getD (6 * q + 5) 0 - g.coord.getD (6 * q + 2) 0 = 0 := by by_contra hh; exact h hh
    exact absurd (by linarith : g.coord.getD (6 * q + 2) 0 = g.coord.getD (6 * q + 5) 0) h'

/-- The loop over the points of one pillar. -/
theorem pillarPoints_ok {g : Grdecl} {q zout : Nat} {zlist nodes u : List Rat} (hc : 6 * q + 6 ≤ g.coord.length) (hz : ∀ k, k < u.length → zlist[zout + k]? = some (u.getD k 0))
    (hn : 3 * (zout + u.length) ≤ nodes.length) :
    ∃ nodes', pillarPoints g zlist zout u.length (6 * q) nodes (3 * zout) = .ok (nodes', 3 * (zout + u.length)) ∧ nodes'.length = nodes.length ∧
      (∀ i, i < 3 * zout → nodes'.getD i 0 = nodes.getD i 0) ∧ ∀ k, k < u.length → nodes'.getD (3 * (zout + k) + 2) 0 = u.getD k 0 ∧
        g.OnPillar q (nodes'.getD (3 * (zout + k)) 0) (nodes'.getD (3 * (zout + k) + 1) 0) (nodes'.getD (3 * (zout + k) + 2) 0) := by
  obtain ⟨⟨r, p⟩, e, h1, h2, h3, h4⟩ := loop_inv (n := u.length) (s := (nodes, 3 * zout)) (f := fun k (r : List Rat × Nat) => do
      let z ← rd zlist (zout + k)
      let nodes ← wr r.1 (r.2 + 2) z
      let nodes ← interpolatePillar g.coord (6 * q) nodes r.2
      .ok (nodes, r.2 + 3))
    (P := fun n (r : List Rat × Nat) => r.2 = 3 * (zout + n) ∧ r.1.length = nodes.length ∧ (∀ i, i < 3 * zout → r.1.getD i 0 = nodes.getD i 0) ∧
      ∀ k, k < n → r.1.getD (3 * (zout + k) + 2) 0 = u.getD k 0 ∧
        g.OnPillar q (r.1.getD (3 * (zout + k)) 0) (r.1.getD (3 * (zout + k) + 1) 0) (r.1.getD (3 * (zout + k) + 2) 0)) ⟨rfl, rfl, fun _ _ => rfl, by simp⟩ (by
      rintro k ⟨r, p⟩ hk ⟨h1, h2, h3, h4⟩
      simp only at h1 h2 h3 h4
      subst h1
      simp only
      rw [rd_of_getElem? (hz k hk), bind_ok, wr_ok (by omega), bind_ok]
      obtain ⟨x, y, e, ho⟩ := interpolate_ok (q := q) (pp := 3 * (zout + k)) (nodes := r.set (3 * (zout + k) + 2) (u.getD k 0)) hc (by simp; omega)
      rw [e, bind_ok]
      rw [getD_set' (by omega), if_pos rfl] at ho
      have hget : ∀ i, (((r.set (3 * (zout + k) + 2) (u.getD k 0)).set (3 * (zout + k)) x).set (3 * (zout + k) + 1) y).getD i 0 =
          if i = 3 * (zout + k) + 1 then y else if i = 3 * (zout + k) then x else if i = 3 * (zout + k) + 2 then u.getD k 0 else r.getD i 0 := by
        intro i
        rw [getD_set' (by simp; omega), getD_set' (by simp; omega), getD_set' (by omega)]
      refine ⟨_, rfl, by simp only; omega, by simpa using h2, ?_, ?_⟩
      · intro i hi
        simp only
        rw [hget, if_neg (by omega), if_neg (by omega), if_neg (by omega)]
        exact h3 i hi
      · intro k' hk'
        simp only
        rcases Nat.lt_or_ge k' k with hlt | hge
        · simp only [hget]
          rw [if_neg (by omega), if_neg (by omega), if_neg (by omega), if_neg (by omega), if_neg (by omega), if_neg (by omega), if_neg (by omega), if_neg (by omega),
            if_neg (by omega)]
          exact h4 k' hlt
        · obtain rfl : k' = k := by omega
          have a0 := hget (3 * (zout + k'))
          have a1 := hget (3 * (zout + k') + 1)
          have a2 := hget (3 * (zout + k') + 2)
          rw [if_neg (by omega), if_pos rfl] at a0
          rw [if_pos rfl] at a1
          rw [if_neg (by omega), if_neg (by omega), if_pos rfl] at a2
          rw [a0, a1, a2]
          exact ⟨rfl, ho⟩)
  simp only at h1 h2 h3 h4
  subst h1
  exact ⟨r, e, h2, h3, h4⟩

theorem startOf_mono (Us : List (List Rat)) {a b : Nat} (h : a ≤ b) : startOf Us a ≤ startOf Us b := by
  unfold startOf
  obtain ⟨m, rfl⟩ : ∃ m, b = a + m := ⟨b - a, by omega⟩
  have : Us.take (a + m) = Us.take a ++ (Us.drop a).take m := List.take_add
  rw [this, List.flatten_append, List.length_append]
  exact Nat.le_add_right _ _

theorem startOf_append {Us : List (List Rat)} {u : List Rat} {q : Nat} (h : q ≤ Us.length) : startOf (Us ++ [u]) q = startOf Us q := by
  unfold startOf
  rw [List.take_append_of_le_length h]

theorem startOf_full {Us : List (List Rat)} : startOf Us Us.length = Us.flatten.length := by
  unfold startOf
  rw [List.take_length]

theorem take_eq_of_holds {buf0 b l u : List Rat} {off : Nat} (h : Holds buf0 off b l) (hu : u = l.take u.length) : b.take (off + u.length) = buf0.take off ++ u := by
  have hul : u.length ≤ l.length := by
    have := congrArg List.length hu
    rw [List.length_take] at this
    omega
  obtain ⟨h1, rfl⟩ := h
  have h2 : (buf0.take off).length = off := by simp; omega
  rw [List.append_assoc, List.take_append, h2, Nat.add_sub_cancel_left, List.take_append_of_le_length hul, ← hu, List.take_take]
  rw [Nat.min_eq_right (by omega)]

/-- One pillar. -/
theorem pillar_ok {g : Grdecl} (hg : g.Ok) {tol : Rat} (ht : 0 ≤ tol) {i j : Nat} (hi : i ≤ g.nx) (hj : j ≤ g.ny) {Us : List (List Rat)} {s : Pillars}
    (hq : Us.length = i + (g.nx + 1) * j) (h : PInv g tol Us s) : ∃ s' u, pillar g tol i j s = .ok s' ∧ PInv g tol (Us ++ [u]) s' := by
  have hqlt : Us.length < (g.nx + 1) * (g.ny + 1) := by
    have := Nat.mul_le_mul_left (g.nx + 1) (show j + 1 ≤ g.ny + 1 by omega)
    rw [Nat.mul_succ] at this
    omega
  have hcap : s.zout + 4 * (2 * g.nz) ≤ s.zlist.length := by
    rw [h.zlen]
    have := h.small
    have h2 := Nat.mul_le_mul_left (8 * g.nz) (Nat.succ_le_of_lt hqlt)
    rw [Nat.mul_succ] at h2
    have h3 : 8 * g.nz * ((g.nx + 1) * (g.ny + 1)) = 8 * (g.nx + 1) * (g.ny + 1) * g.nz := by ring
    omega
  obtain ⟨b, l, e1, hb, hsrt, hll, hmem⟩ := createSortedList_ok (zcorn := g.zcorn) (actnum := g.actnum) (n := 2 * g.nz) (Z := zBeg g i j) (A := aBeg g i j)
    (fun t => positions_z hg.nx hg.ny hi hj) (fun t => positions_a hg.nx hg.ny hi hj)
    (fun K t hK _ => zcorn_lt hg ⟨side_lt hg.nx hi (t / 2), side_lt hg.ny hj (t % 2), hK⟩)
    (fun K t hK _ => actnum_lt hg ⟨side_lt hg.nx hi (t / 2), side_lt hg.ny hj (t % 2), hK⟩) hcap
  obtain ⟨b', l', u, e2, hb', hl', hu, U⟩ := uniquify_ok ht hb hsrt
  have hdep : ∀ v, v ∈ l ↔ g.DepthOn Us.length v := by
    intro v
    rw [hmem, hq]
    exact collected_iff hg hi hj v
  have hus : UsOk g tol (Us ++ [u]) := by
    intro q w e
    rcases Nat.lt_or_ge q Us.length with hlt | hge
    · rw [List.getElem?_append_left hlt] at e
      exact h.us q w e
    · rw [List.getElem?_append_right hge] at e
      have hq0 : q - Us.length = 0 := by
        by_contra hc
        rw [List.getElem?_eq_none (by simp; omega)] at e
        cases e
      obtain rfl : q = Us.length := by omega
      rw [hq0] at e
      cases e
      exact ⟨U.apart, fun x hx => (hdep x).1 (U.mem x hx), fun v hv => U.near v ((hdep v).2 hv), fun v hv => U.deepest v ((hdep v).2 hv)⟩
  have htot := length_flatten_le ht hus
  simp only [List.flatten_append, List.flatten_cons, List.flatten_nil, List.append_nil, List.length_append] at htot
  have hzo := h.zout
  have htake := take_eq_of_holds hb' hu
  rw [h.zlist] at htake
  have hul : u.length ≤ l'.length := by
    have := congrArg List.length hu
    rw [List.length_take] at this
    omega
  have hnl := h.nlen
  have hcl := hg.coord
  obtain ⟨nodes', e3, n1, n2, n3⟩ := pillarPoints_ok (g := g) (q := Us.length) (zout := s.zout) (zlist := b') (nodes := s.nodes) (u := u) (by omega) (by
      intro k hk
      have := hb'.get (i := k) (by omega)
      have hlen := hb'.length
      have hb1 := hb'.1
      rw [getElem?_getD (by omega), this, hu, getD_take (by omega)]) (by omega)
  have hflat : (Us ++ [u]).flatten = Us.flatten ++ u := by simp
  refine ⟨{ zlist := b', zout := s.zout + u.length, zptr := s.zptr.set s.pos (s.zout + u.length), pos := s.pos + 1, nodes := nodes', pt := 3 * (s.zout + u.length), coord := s.coord + 6 }, u, ?_, ?_⟩
  · unfold pillar
    simp only
    rw [e1, bind_ok, e2, bind_ok, h.coord, h.pt]
    simp only
    rw [e3, bind_ok, wr_ok (by rw [h.pos, h.zplen]; omega), bind_ok]
  · refine ⟨hus, by simp only; rw [hb'.length, h.zlen], by simp only; rw [hflat, List.length_append, hzo], ?_, ?_, by simpa using h.zplen, ?_, ?_, ?_, rfl, ?_, ?_, ?_⟩
    · simp only [List.length_append, List.length_singleton]
      have := h.small
      rw [Nat.mul_succ]
      omega
    · simp only
      rw [htake, hflat]
    · intro q hqq
      simp only [List.length_append, List.length_singleton] at hqq
      simp only
      rw [List.getElem?_set, h.pos]
      rcases Nat.lt_or_ge q (Us.length + 1) with hlt | hge
      · rw [if_neg (by omega), startOf_append (by omega)]
        exact h.zptr q (by omega)
      · obtain rfl : q = Us.length + 1 := by omega
        rw [if_pos rfl, if_pos (by rw [h.zplen]; omega)]
        have : startOf (Us ++ [u]) (Us.length + 1) = (Us ++ [u]).flatten.length := by
          have := startOf_full (Us := Us ++ [u])
          simpa using this
        rw [this, hflat, List.length_append, hzo]
    · simp only [List.length_append, List.length_singleton]
      rw [h.pos]
    · simp only
      omega
    · simp only [List.length_append, List.length_singleton]
      rw [h.coord]
      omega
    · intro k hk
      simp only at hk ⊢
      rw [hflat, List.getD_eq_getElem?_getD (l := Us.flatten ++ u)]
      rcases Nat.lt_or_ge k s.zout with hlt | hge
      · rw [n2 _ (by omega), h.z k hlt, List.getElem?_append_left (by omega), List.getD_eq_getElem?_getD]
      · have := (n3 (k - s.zout) (by omega)).1
        rw [show s.zout + (k - s.zout) = k by omega] at this
        rw [this, List.getElem?_append_right (by omega), ← hzo, List.getD_eq_getElem?_getD]
    · intro q k hqq h1 h2
      simp only [List.length_append, List.length_singleton] at hqq
      simp only
      rcases Nat.lt_or_ge q Us.length with hlt | hge
      · rw [startOf_append (by omega)] at h1 h2
        have hle : startOf Us (q + 1) ≤ s.zout := by
          rw [hzo, ← startOf_full]
          exact startOf_mono _ (by omega)
        rw [n2 _ (by omega), n2 _ (by omega), n2 _ (by omega)]
        exact h.line q k hlt h1 h2
      · obtain rfl : q = Us.length := by omega
        rw [startOf_append (le_refl _), startOf_full, ← hzo] at h1
        have h3 : startOf (Us ++ [u]) (Us.length + 1) = s.zout + u.length := by
          have := startOf_full (Us := Us ++ [u])
          rw [List.length_append, List.length_singleton] at this
          rw [this, hflat, List.length_append, hzo]
        rw [h3] at h2
        have := (n3 (k - s.zout) (by omega)).2
        rw [show s.zout + (k - s.zout) = k by omega] at this
        exact this

/-- Two nested loops as one. -/
theorem loop2_inv {σ : Type} {a b : Nat} {f : Nat → Nat → σ → M σ} {s : σ} (P : Nat → σ → Prop) (h0 : P 0 s)
    (hs : ∀ i j t, i < a → j < b → P (i + a * j) t → ∃ t', f i j t = .ok t' ∧ P (i + a * j + 1) t') :
    ∃ t, loop b (fun j s => loop a (fun i s => f i j s) s) s = .ok t ∧ P (a * b) t := by
  refine loop_inv (P := fun j t => P (a * j) t) h0 ?_
  intro j t hj hP
  obtain ⟨t', e, h⟩ := loop_inv (n := a) (s := t) (f := fun i s => f i j s) (P := fun i t => P (i + a * j) t) (by simpa using hP) (by
    intro i t hi hP
    obtain ⟨t', e, h⟩ := hs i j t hi hj hP
    exact ⟨t', e, by rw [show i + 1 + a * j = i + a * j + 1 by omega]; exact h⟩)
  exact ⟨t', e, by rw [Nat.mul_succ, Nat.add_comm]; exact h⟩

/-- The first part of `finduniquepoints`. -/
theorem pillars_ok {g : Grdecl} (hg : g.Ok) {tol : Rat} (ht : 0 ≤ tol) (jr : Nat → Rat) (jn : Nat → Nat) :
    ∃ s Us, pillars g tol jr jn = .ok s ∧ Us.length = g.numPillars ∧ PInv g tol Us s := by
  unfold pillars
  rw [wr_ok (by simp), bind_ok]
  obtain ⟨s, e, Us, h1, h2⟩ := loop2_inv (a := g.nx + 1) (b := g.ny + 1) (f := fun i j s => pillar g tol i j s)
    (s := { zlist := realloc jr [] (8 * (g.nx + 1) * (g.ny + 1) * g.nz), zout := 0, zptr := (realloc jn [] ((g.nx + 1) * (g.ny + 1) + 1)).set 0 0, pos := 1, nodes := realloc jr [] (3 * 8 * (g.nx * g.ny * g.nz)), pt := 0, coord := 0 })
    (P := fun q s => ∃ Us : List (List Rat), Us.length = q ∧ PInv g tol Us s) ⟨[], rfl, by
      refine ⟨by intro q u e; simp at e, by simp, rfl, by simp, by simp, by simp, ?_, rfl, by simp, rfl, rfl, by simp, by simp⟩
      intro q hq
      obtain rfl : q = 0 := by simpa using hq
      simp only
      rw [List.getElem?_set_self (by simp)]
      rfl⟩ (by
      rintro i j t hi hj ⟨Us, h1, h2⟩
      obtain ⟨s', u, e, h3⟩ := pillar_ok hg ht (by omega) (by omega) h1 h2
      exact ⟨s', e, Us ++ [u], by simp [h1], h3⟩)
  exact ⟨s, Us, e, h1, h2⟩

end Opm.UniquePoints
