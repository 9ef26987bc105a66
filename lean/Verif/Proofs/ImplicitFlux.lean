import Verif.Proofs.ImplicitMatrix
/-!
# Implicit transport: flux through a face
-/

namespace Opm.ImplicitTransport
open Opm

/-- The number of the chosen side. -/
def pick {α : Type} (side : Bool) (x y : α) : α := if side then y else x

/-- The sides water and oil come from; `true` is the second. -/
def pix (d g w1 o1 w2 o2 : Rat) : Bool × Bool :=
  if (¬ d < 0 ∧ ¬ g < 0) ∨ (¬ d > 0 ∧ ¬ g > 0) then
    (! decide (¬ d < 0 ∧ ¬ g < 0), ! decide (¬ d - pick (! decide (¬ d < 0 ∧ ¬ g < 0)) w1 w2 * g < 0))
  else (! decide (d + pick (! decide (¬ d < 0 ∧ ¬ g > 0)) o1 o2 * g > 0), ! decide (¬ d < 0 ∧ ¬ g > 0))

theorem onSide_ok {l : List Rat} {a b n : Nat} (hl : l.length = 2 * n) (ha : a < n) (hb : b < n) (p : Bool) {k : Nat} (hk : k < 2) :
    onSide l a b p k = .ok (l.getD (2 * pick p a b + k) 0) := by
  unfold onSide pick
  cases p
  · rw [if_neg (by simp), if_neg (by simp), show (2 * (a : Int) + (k : Int)) = ((2 * a + k : Nat) : Int) by push_cast; rfl, rdI_natCast]
    exact rd_of_getElem? (getElem?_getD (by omega))
  · rw [if_pos rfl, if_pos rfl, show (2 * (b : Int) + (k : Int)) = ((2 * b + k : Nat) : Int) by push_cast; rfl, rdI_natCast]
    exact rd_of_getElem? (getElem?_getD (by omega))

theorem getD_pick (l : List Rat) (p : Bool) (a b k : Nat) : l.getD (2 * pick p a b + k) 0 = pick p (l.getD (2 * a + k) 0) (l.getD (2 * b + k) 0) := by
  unfold pick; cases p <;> rfl

/-- Upwind data, from the numbers of the two cells. -/
def uw (S : Store) (d g : Rat) (a b : Nat) : Upwind :=
  let p := pix d g (S.mob.getD (2 * a) 0) (S.mob.getD (2 * a + 1) 0) (S.mob.getD (2 * b) 0) (S.mob.getD (2 * b + 1) 0)
  { pix0 := p.1, pix1 := p.2, m0 := pick p.1 (S.mob.getD (2 * a) 0) (S.mob.getD (2 * b) 0), m1 := pick p.2 (S.mob.getD (2 * a + 1) 0) (S.mob.getD (2 * b + 1) 0),
    dm0 := pick p.1 (S.dmob.getD (2 * a) 0) (S.dmob.getD (2 * b) 0), dm1 := pick p.2 (S.dmob.getD (2 * a + 1) 0) (S.dmob.getD (2 * b + 1) 0) }

theorem upwindMobility_ok {I : Input} {S : Store} (hS : StoreOk I S) {a b : Nat} (ha : a < I.G.nc) (hb : b < I.G.nc) (d g : Rat) : upwindMobility S d g a b = .ok (uw S d g a b) := by
  have m0 : ∀ p, onSide S.mob a b p 0 = .ok (pick p (S.mob.getD (2 * a) 0) (S.mob.getD (2 * b) 0)) := fun p => by
    rw [show (0 : Int) = ((0 : Nat) : Int) from rfl, onSide_ok hS.mob ha hb p (by omega), getD_pick]; rfl
  have m1 : ∀ p, onSide S.mob a b p 1 = .ok (pick p (S.mob.getD (2 * a + 1) 0) (S.mob.getD (2 * b + 1) 0)) := fun p => by
    rw [show (1 : Int) = ((1 : Nat) : Int) from rfl, onSide_ok hS.mob ha hb p (by omega), getD_pick]
  have d0 : ∀ p, onSide S.dmob a b p 0 = .ok (pick p (S.dmob.getD (2 * a) 0) (S.dmob.getD (2 * b) 0)) := fun p => by
    rw [show (0 : Int) = ((0 : Nat) : Int) from rfl, onSide_ok hS.dmob ha hb p (by omega), getD_pick]; rfl
  have d1 : ∀ p, onSide S.dmob a b p 1 = .ok (pick p (S.dmob.getD (2 * a + 1) 0) (S.dmob.getD (2 * b + 1) 0)) := fun p => by
    rw [show (1 : Int) = ((1 : Nat) : Int) from rfl, onSide_ok hS.dmob ha hb p (by omega), getD_pick]
  unfold upwindMobility upwindSides uw pix
  by_cases h : (¬ d < 0 ∧ ¬ g < 0) ∨ (¬ d > 0 ∧ ¬ g > 0)
  · simp only [if_pos h, m0, m1, d0, d1, bind_ok]
  · simp only [if_neg h, m0, m1, d0, d1, bind_ok]

/-- Some fluid can move. -/
theorem pix_pos {d g w1 o1 w2 o2 : Rat} (hw1 : 0 ≤ w1) (ho1 : 0 ≤ o1) (hw2 : 0 ≤ w2) (ho2 : 0 ≤ o2) (h1 : 0 < w1 + o1) (h2 : 0 < w2 + o2) (h0 : d = 0 → 0 < w2 + o1) :
    0 < pick (pix d g w1 o1 w2 o2).1 w1 w2 + pick (pix d g w1 o1 w2 o2).2 o1 o2 := by
  unfold pix
  by_cases h : (¬ d < 0 ∧ ¬ g < 0) ∨ (¬ d > 0 ∧ ¬ g > 0)
  · rw [if_pos h]
    by_cases hA : ¬ d < 0 ∧ ¬ g < 0
    · simp only [hA, not_false_eq_true, and_self, decide_true, Bool.not_true, pick, Bool.false_eq_true, if_false, Bool.not_eq_true', decide_eq_false_iff_not, not_not]
      split
      · rename_i hlt
        have : 0 < w1 * g := by have := not_lt.1 hA.1; linarith
        have : 0 < w1 := by
          rcases hw1.eq_or_lt with e | e
          · rw [← e] at this; linarith
          · exact e
        linarith
      · exact h1
    · obtain ⟨hd, hg⟩ : ¬ d > 0 ∧ ¬ g > 0 := h.resolve_left hA
      simp only [hA, decide_false, Bool.not_false, pick, if_true, Bool.not_eq_true', decide_eq_false_iff_not, not_not]
      split
      · exact h2
      · rename_i hlt
        by_cases hd0 : d = 0
        · exact h0 hd0
        · have hd' : d < 0 := lt_of_le_of_ne (not_lt.1 hd) hd0
          have : 0 < w2 := by
            rcases hw2.eq_or_lt with e | e
            · rw [← e] at hlt; exact absurd (by linarith) hlt
            · exact e
          linarith
  · rw [if_neg h]
    by_cases hA : ¬ d < 0 ∧ ¬ g > 0
    · simp only [hA, not_false_eq_true, and_self, decide_true, Bool.not_true, pick, Bool.false_eq_true, if_false, Bool.not_eq_true', decide_eq_false_iff_not]
      split
      · rename_i hlt
        have hd : 0 < d := by
          by_contra hcon
          exact h (.inr ⟨hcon, hA.2⟩)
        have : 0 < o1 := by
          rcases ho1.eq_or_lt with e | e
          · rw [← e] at hlt; exact absurd (by linarith) hlt
          · exact e
        linarith
      · exact h1
    · simp only [hA, decide_false, Bool.not_false, pick, if_true, Bool.not_eq_true', decide_eq_false_iff_not]
      split
      · exact h2
      · rename_i hlt
        rw [not_not] at hlt
        have hd : d < 0 := by
          by_contra hcon
          by_cases hg : g > 0
          · exact h (.inl ⟨hcon, by linarith⟩)
          · exact hA ⟨hcon, hg⟩
        have : 0 < o2 := by
          rcases ho2.eq_or_lt with e | e
          · rw [← e] at hlt; linarith
          · exact e
        linarith

theorem pick_or {α : Type} (p : Bool) (x y : α) : pick p x y = x ∨ pick p x y = y := by cases p <;> simp [pick]

/-- The sides chosen are upstream. -/
theorem pix_upwind {d g w1 o1 w2 o2 : Rat} (hw1 : 0 ≤ w1) (ho1 : 0 ≤ o1) (hw2 : 0 ≤ w2) (ho2 : 0 ≤ o2)
    (hpos : 0 < pick (pix d g w1 o1 w2 o2).1 w1 w2 + pick (pix d g w1 o1 w2 o2).2 o1 o2) :
    IsUpwindFlux d g w1 o1 w2 o2
      (pick (pix d g w1 o1 w2 o2).1 w1 w2 / (pick (pix d g w1 o1 w2 o2).1 w1 w2 + pick (pix d g w1 o1 w2 o2).2 o1 o2) * (d + pick (pix d g w1 o1 w2 o2).2 o1 o2 * g)) := by
  refine ⟨_, _, _, hpos, rfl, rfl, pick_or _ _ _, pick_or _ _ _, ?_⟩
  have n0 : 0 ≤ pick (pix d g w1 o1 w2 o2).1 w1 w2 := by rcases pick_or (pix d g w1 o1 w2 o2).1 w1 w2 with e | e <;> rw [e] <;> assumption
  have n1 : 0 ≤ pick (pix d g w1 o1 w2 o2).2 o1 o2 := by rcases pick_or (pix d g w1 o1 w2 o2).2 o1 o2 with e | e <;> rw [e] <;> assumption
  have sgn : ∀ {m x : Rat}, 0 ≤ m → (0 < m / (pick (pix d g w1 o1 w2 o2).1 w1 w2 + pick (pix d g w1 o1 w2 o2).2 o1 o2) * x → 0 < x) ∧
      (m / (pick (pix d g w1 o1 w2 o2).1 w1 w2 + pick (pix d g w1 o1 w2 o2).2 o1 o2) * x < 0 → x < 0) := by
    intro m x hm
    have := div_nonneg hm hpos.le
    constructor
    · intro h
      by_contra hcon
      exact absurd h (not_lt.2 (mul_nonpos_of_nonneg_of_nonpos this (not_lt.1 hcon)))
    · intro h
      by_contra hcon
      exact absurd h (not_lt.2 (mul_nonneg this (not_lt.1 hcon)))
  -- what is known about the sides
  have key : (0 < d + pick (pix d g w1 o1 w2 o2).2 o1 o2 * g → (pix d g w1 o1 w2 o2).1 = false) ∧ (d + pick (pix d g w1 o1 w2 o2).2 o1 o2 * g < 0 → (pix d g w1 o1 w2 o2).1 = true) ∧
      (0 < d - pick (pix d g w1 o1 w2 o2).1 w1 w2 * g → (pix d g w1 o1 w2 o2).2 = false) ∧ (d - pick (pix d g w1 o1 w2 o2).1 w1 w2 * g < 0 → (pix d g w1 o1 w2 o2).2 = true) := by
    by_cases h : (¬ d < 0 ∧ ¬ g < 0) ∨ (¬ d > 0 ∧ ¬ g > 0)
    · have e0 : (pix d g w1 o1 w2 o2).1 = ! decide (¬ d < 0 ∧ ¬ g < 0) := by unfold pix; rw [if_pos h]
      have e1 : (pix d g w1 o1 w2 o2).2 = ! decide (¬ d - pick (pix d g w1 o1 w2 o2).1 w1 w2 * g < 0) := by rw [e0]; unfold pix; rw [if_pos h]
      refine ⟨fun hq => ?_, fun hq => ?_, fun hq => ?_, fun hq => ?_⟩
      · by_contra hcon
        have hA : ¬ (¬ d < 0 ∧ ¬ g < 0) := by rw [e0] at hcon; simpa using hcon
        obtain ⟨hd, hg⟩ := h.resolve_left hA
        have := mul_nonpos_of_nonneg_of_nonpos n1 (not_lt.1 hg)
        have := not_lt.1 hd
        linarith
      · by_contra hcon
        have hA : ¬ d < 0 ∧ ¬ g < 0 := by rw [e0] at hcon; simpa using hcon
        have := mul_nonneg n1 (not_lt.1 hA.2)
        have := not_lt.1 hA.1
        linarith
      · rw [e1]; simp only [Bool.not_eq_false', decide_eq_true_eq]; linarith
      · rw [e1]; simp only [Bool.not_eq_true', decide_eq_false_iff_not, not_not]; exact hq
    · have e1 : (pix d g w1 o1 w2 o2).2 = ! decide (¬ d < 0 ∧ ¬ g > 0) := by unfold pix; rw [if_neg h]
      have e0 : (pix d g w1 o1 w2 o2).1 = ! decide (d + pick (pix d g w1 o1 w2 o2).2 o1 o2 * g > 0) := by rw [e1]; unfold pix; rw [if_neg h]
      refine ⟨fun hq => ?_, fun hq => ?_, fun hq => ?_, fun hq => ?_⟩
      · rw [e0]; simp only [Bool.not_eq_false', decide_eq_true_eq]; exact hq
      · rw [e0]; simp only [Bool.not_eq_true', decide_eq_false_iff_not]; linarith
      · by_contra hcon
        have hA : ¬ (¬ d < 0 ∧ ¬ g > 0) := by rw [e1] at hcon; simpa using hcon
        have hd : d < 0 := by
          by_contra hd
          by_cases hg : g > 0
          · exact h (.inl ⟨hd, by linarith⟩)
          · exact hA ⟨hd, hg⟩
        have hg : 0 < g := by
          by_contra hg
          exact h (.inr ⟨by linarith, hg⟩)
        have := mul_nonneg n0 hg.le
        linarith
      · by_contra hcon
        have hA : ¬ d < 0 ∧ ¬ g > 0 := by rw [e1] at hcon; simpa using hcon
        have := mul_nonpos_of_nonneg_of_nonpos n0 (not_lt.1 hA.2)
        have := not_lt.1 hA.1
        linarith
  obtain ⟨k1, k2, k3, k4⟩ := key
  refine ⟨fun hq => ?_, fun hq => ?_, fun hq => ?_, fun hq => ?_⟩
  · have := k1 ((sgn n0).1 hq)
    rw [this]; rfl
  · have := k2 ((sgn n0).2 hq)
    rw [this]; rfl
  · have := k3 ((sgn n1).1 hq)
    rw [this]; rfl
  · have := k4 ((sgn n1).2 hq)
    rw [this]; rfl

theorem gravityFlux_ok {I : Input} (hI : InputOk I) {h : List Int} (hh : HalfOk I.G h) {S : Store} (hS : StoreOk I S) {f a b : Nat} (hs : I.G.Sides f a b) :
    gravityFlux I.gravity.isSome h S f = .ok (S.trans.getD f 0 * (match I.gravity with
      | none => 0
      | some g => (I.P.rho.1 - I.P.rho.2) *
        dotN I.geo.d (fun j => g.getD j 0) (fun j => I.geo.cellCentroids.getD (b * I.geo.d + j) 0 - I.geo.cellCentroids.getD (a * I.geo.d + j) 0))) := by
  have hv := hI.valid
  have hdr := hS.drho
  have hf := hs.lt hv
  have hlen := hh.len
  cases hg : I.gravity with
  | none => simp [gravityFlux]
  | some g =>
    rw [hg] at hdr
    simp only [Option.isSome_some, if_true] at hdr
    obtain ⟨i1, g1⟩ := Trans.exists_half hv hs (.inl rfl)
    obtain ⟨i2, g2⟩ := Trans.exists_half hv hs (.inr rfl)
    have e1 : h[2 * f]? = some (i1 : Int) := by
      have := hh.first f a i1 b hs g1
      rw [← this, List.getD_eq_getElem?_getD, List.getElem?_eq_getElem (by omega)]; rfl
    have e2 : h[2 * f + 1]? = some (i2 : Int) := by
      have := hh.second f b i2 a hs g2
      rw [← this, List.getD_eq_getElem?_getD, List.getElem?_eq_getElem (by omega)]; rfl
    have hp := hv.rowPos hI.first
    have l1 : i1 < S.dg.length := by
      obtain ⟨q1, q2, q3, _⟩ := (Trans.halfFace_iff hv).1 g1
      have := hp.lt_total q1 q3
      have := hS.dgLen
      omega
    have l2 : i2 < S.dg.length := by
      obtain ⟨q1, q2, q3, _⟩ := (Trans.halfFace_iff hv).1 g2
      have := hp.lt_total q1 q3
      have := hS.dgLen
      omega
    unfold gravityFlux
    rw [Option.isSome_some, if_pos rfl, rd_of_getElem? e1, bind_ok, rd_of_getElem? e2, bind_ok, check_ok (by simp), bind_ok, rdI_natCast, rd_of_getElem? (getElem?_getD l1), bind_ok,
      rdI_natCast, rd_of_getElem? (getElem?_getD l2), bind_ok, hS.dg g hg a f i1 g1, hS.dg g hg b f i2 g2, hdr]
    congr 1
    unfold halfGrav dotN
    dsimp only
    have : ∑ j ∈ Finset.range I.geo.d, g.getD j 0 * (I.geo.cellCentroids.getD (b * I.geo.d + j) 0 - I.geo.cellCentroids.getD (a * I.geo.d + j) 0) =
        ∑ j ∈ Finset.range I.geo.d, g.getD j 0 * (I.geo.faceCentroids.getD (f * I.geo.d + j) 0 - I.geo.cellCentroids.getD (a * I.geo.d + j) 0) -
        ∑ j ∈ Finset.range I.geo.d, g.getD j 0 * (I.geo.faceCentroids.getD (f * I.geo.d + j) 0 - I.geo.cellCentroids.getD (b * I.geo.d + j) 0) := by
      rw [← Finset.sum_sub_distrib]
      exact Finset.sum_congr rfl (fun j _ => by ring)
    rw [this]
    ring

/-- The store holds the quantities of the changes `x`, with everything that does not change. -/
structure Loaded (I : Input) (st : State) (x : Nat → Rat) (S : Store) : Prop where
  store : StoreOk I S
  cells : ∀ c, c < I.G.nc → At I st x S c

/-- The flux of water through face `f` from cell `a` to cell `b`. -/
def faceQ (I : Input) (st : State) (x : Nat → Rat) (S : Store) (f a b : Nat) : Rat :=
  let u := uw S (st.faceflux.getD f 0) (drive I (S.trans.getD f 0) (newSat I st x) a b) a b
  u.m0 / (u.m0 + u.m1) * (st.faceflux.getD f 0 + u.m1 * drive I (S.trans.getD f 0) (newSat I st x) a b)

/-- The contributions of face `f` to cell `c`. -/
def kon (I : Input) (st : State) (x : Nat → Rat) (S : Store) (dt : Rat) (c f a b : Nat) : Contrib :=
  connection (uw S (st.faceflux.getD f 0) (drive I (S.trans.getD f 0) (newSat I st x) a b) a b) (st.faceflux.getD f 0) (drive I (S.trans.getD f 0) (newSat I st x) a b)
    (-S.trans.getD f 0 * S.dpc.getD a 0) (S.trans.getD f 0 * S.dpc.getD b 0) dt (decide (a = c))

theorem newSat_admissible {I : Input} (hI : InputOk I) {st : State} {x : Nat → Rat} {c : Nat} (hc : c < I.G.nc) : Admissible I c (newSat I st x c) := closest_admissible hI hc _

theorem faceQ_upwind {I : Input} (hI : InputOk I) {st : State} (hst : StateOk I st) {x : Nat → Rat} {S : Store} (hS : Loaded I st x S) {f a b : Nat} (hs : I.G.Sides f a b) :
    0 < (uw S (st.faceflux.getD f 0) (drive I (S.trans.getD f 0) (newSat I st x) a b) a b).m0 + (uw S (st.faceflux.getD f 0) (drive I (S.trans.getD f 0) (newSat I st x) a b) a b).m1 ∧
    IsUpwindFlux (st.faceflux.getD f 0) (drive I (S.trans.getD f 0) (newSat I st x) a b) (lamW I.P a (newSat I st x a)) (lamO I.P a (newSat I st x a)) (lamW I.P b (newSat I st x b))
      (lamO I.P b (newSat I st x b)) (faceQ I st x S f a b) := by
  obtain ⟨ra, rb⟩ := hI.valid.side_range hs
  have ha : a < I.G.nc := by omega
  have hb : b < I.G.nc := by omega
  obtain ⟨a1, a2, a3⟩ := hI.mobility a _ ha (newSat_admissible hI (st := st) (x := x) ha)
  obtain ⟨b1, b2, b3⟩ := hI.mobility b _ hb (newSat_admissible hI (st := st) (x := x) hb)
  have hpos := pix_pos (g := drive I (S.trans.getD f 0) (newSat I st x) a b) a1 a2 b1 b2 a3 b3
    (fun h => hst.moving f a b hs h _ _ (newSat_admissible hI (st := st) (x := x) ha) (newSat_admissible hI (st := st) (x := x) hb))
  have hup := pix_upwind a1 a2 b1 b2 hpos
  unfold faceQ uw
  dsimp only
  rw [(hS.cells a ha).mobW, (hS.cells a ha).mobO, (hS.cells b hb).mobW, (hS.cells b hb).mobO]
  exact ⟨hpos, hup⟩

theorem uw_nonneg {I : Input} (hI : InputOk I) {st : State} {x : Nat → Rat} {S : Store} (hS : Loaded I st x S) {a b : Nat} (ha : a < I.G.nc) (hb : b < I.G.nc) (d g : Rat) :
    0 ≤ (uw S d g a b).m0 ∧ 0 ≤ (uw S d g a b).m1 := by
  obtain ⟨a1, a2, a3⟩ := hI.mobility a _ ha (newSat_admissible hI (st := st) (x := x) ha)
  obtain ⟨b1, b2, b3⟩ := hI.mobility b _ hb (newSat_admissible hI (st := st) (x := x) hb)
  unfold uw
  dsimp only
  rw [(hS.cells a ha).mobW, (hS.cells a ha).mobO, (hS.cells b hb).mobW, (hS.cells b hb).mobO]
  constructor
  · rcases pick_or (pix d g (lamW I.P a (newSat I st x a)) (lamO I.P a (newSat I st x a)) (lamW I.P b (newSat I st x b)) (lamO I.P b (newSat I st x b))).1
      (lamW I.P a (newSat I st x a)) (lamW I.P b (newSat I st x b)) with e | e <;> rw [e] <;> assumption
  · rcases pick_or (pix d g (lamW I.P a (newSat I st x a)) (lamO I.P a (newSat I st x a)) (lamW I.P b (newSat I st x b)) (lamO I.P b (newSat I st x b))).2
      (lamO I.P a (newSat I st x a)) (lamO I.P b (newSat I st x b)) with e | e <;> rw [e] <;> assumption

theorem fluxConnection_ok {I : Input} (hI : InputOk I) {h : List Int} (hh : HalfOk I.G h) {st : State} (hst : StateOk I st) {x : Nat → Rat} {S : Store} (hS : Loaded I st x S)
    {f a b : Nat} (hs : I.G.Sides f a b) (dt : Rat) (c : Nat) :
    fluxConnection I h S st.faceflux dt c f = .ok (kon I st x S dt c f a b) := by
  have hv := hI.valid
  have hf := hs.lt hv
  obtain ⟨ra, rb⟩ := hv.side_range hs
  have ha : a < I.G.nc := by omega
  have hb : b < I.G.nc := by omega
  obtain ⟨hpos, _⟩ := faceQ_upwind hI hst hS hs
  obtain ⟨n0, n1⟩ := uw_nonneg hI hS ha hb (st.faceflux.getD f 0) (drive I (S.trans.getD f 0) (newSat I st x) a b)
  have hfl := hst.faceflux
  have l1 := hS.store.pc
  have l2 := hS.store.dpc
  have l3 := hS.store.transLen
  have hcap : capFlux S f a b = .ok (S.trans.getD f 0 * (pcow I.P b (newSat I st x b) - pcow I.P a (newSat I st x a)), -S.trans.getD f 0 * S.dpc.getD a 0, S.trans.getD f 0 * S.dpc.getD b 0) := by
    unfold capFlux
    rw [check_ok (by simp), bind_ok, rd_of_getElem? (getElem?_getD (by omega)), bind_ok, rdI_natCast, rd_of_getElem? (getElem?_getD (by omega)), bind_ok, rdI_natCast,
      rd_of_getElem? (getElem?_getD (by omega)), bind_ok, rdI_natCast, rd_of_getElem? (getElem?_getD (by omega)), bind_ok, rdI_natCast, rd_of_getElem? (getElem?_getD (by omega)), bind_ok,
      (hS.cells a ha).pc, (hS.cells b hb).pc]
  have hdr : drive I (S.trans.getD f 0) (newSat I st x) a b = S.trans.getD f 0 * (match I.gravity with
      | none => 0
      | some g => (I.P.rho.1 - I.P.rho.2) *
        dotN I.geo.d (fun j => g.getD j 0) (fun j => I.geo.cellCentroids.getD (b * I.geo.d + j) 0 - I.geo.cellCentroids.getD (a * I.geo.d + j) 0)) +
      S.trans.getD f 0 * (pcow I.P b (newSat I st x b) - pcow I.P a (newSat I st x a)) := by
    unfold drive
    rw [mul_add]
    rfl
  unfold fluxConnection
  rw [rd_of_getElem? hs.1, bind_ok, rd_of_getElem? hs.2, bind_ok, rd_of_getElem? (getElem?_getD (by omega)), bind_ok, gravityFlux_ok hI hh hS.store hs, bind_ok, hcap, bind_ok]
  dsimp only
  rw [← hdr, upwindMobility_ok hS.store ha hb, bind_ok, check_ok (decide_eq_true (not_or.2 ⟨not_lt.2 n0, not_lt.2 n1⟩)), bind_ok, check_ok (decide_eq_true hpos), bind_ok]
  unfold kon
  congr 2
  simp

/-- What a face contributes to the residual of a cell. -/
theorem kon_F {I : Input} {st : State} {x : Nat → Rat} {S : Store} {dt : Rat} {c f a b : Nat} :
    (kon I st x S dt c f a b).F = dt * ((if a = c then 1 else -1) * faceQ I st x S f a b) := by
  unfold kon connection faceQ Contrib.add
  by_cases h : a = c
  · simp only [h, decide_true, if_true]
    split <;> split <;> simp <;> ring
  · simp only [h, decide_false, if_false, Bool.false_eq_true]
    split <;> split <;> simp <;> ring

end Opm.ImplicitTransport
