import Verif.Model.SpuExplicit
import Verif.Spec.Flux
import Verif.Proofs.GridSums
import Verif.Proofs.GridValid
import Verif.Proofs.Sums
import Mathlib.Tactic.Linarith
import Mathlib.Tactic.FieldSimp
import Mathlib.Tactic.Ring
import Mathlib.Algebra.Order.Field.Rat
import Mathlib.Algebra.BigOperators.Ring.Finset
/-!
# C35: explicit upwind transport conserves mass
-/

namespace Opm.Spu
open Opm

/-- The volumetric water source of a cell with source `src`: pure water is injected, a producer takes the fractional flow `m1/(m1+m2)`. -/
def waterSource (src m1 m2 : Rat) : Rat := if 0 < src then src else src * (m1 / (m1 + m2))

/-- Admissible data: the arrays are long enough, mobilities are not negative, and the divisions have nonzero denominators:
in producing cells, and for any pair of mobilities that upstream weighting can combine on a face. -/
structure SpuData (g : GridTopo) (s0 s mob dflux gflux src : List Rat) : Prop where
  lenS0 : g.nc ≤ s0.length
  lenS : g.nc ≤ s.length
  lenMob : 2 * g.nc ≤ mob.length
  lenD : g.nf ≤ dflux.length
  lenG : g.nf ≤ gflux.length
  lenSrc : g.nc ≤ src.length
  nonneg : ∀ i, 0 ≤ mob.getD i 0
  wetCell : ∀ c, c < g.nc → src.getD c 0 ≤ 0 → 0 < mob.getD (2 * c) 0 + mob.getD (2 * c + 1) 0
  wetFace : ∀ f a b x y : Nat, g.Sides f a b → (x = a ∨ x = b) → (y = a ∨ y = b) → 0 < mob.getD (2 * x) 0 + mob.getD (2 * y + 1) 0

theorem spuSources_ok {g : GridTopo} {s0 s mob dflux gflux src : List Rat} (hd : SpuData g s0 s mob dflux gflux src) (dt : Rat) :
    ∃ t, spuSources g.nc s0 mob src dt s = .ok t ∧ t.length = s.length ∧
      ∀ c, c < g.nc → t.getD c 0 = s0.getD c 0 + dt * waterSource (src.getD c 0) (mob.getD (2 * c) 0) (mob.getD (2 * c + 1) 0) := by
  unfold spuSources
  refine loop_inv (P := fun k (t : List Rat) => t.length = s.length ∧
      ∀ c, c < k → t.getD c 0 = s0.getD c 0 + dt * waterSource (src.getD c 0) (mob.getD (2 * c) 0) (mob.getD (2 * c + 1) 0)) ⟨rfl, by omega⟩ ?_
  rintro i t hi ⟨h1, h2⟩
  have l1 := hd.lenS0
  have l2 := hd.lenS
  have l3 := hd.lenMob
  have l4 := hd.lenSrc
  have key : ∀ v, v = dt * waterSource (src.getD i 0) (mob.getD (2 * i) 0) (mob.getD (2 * i + 1) 0) →
      ∃ t', addAt (t.set i (s0.getD i 0)) i v = .ok t' ∧ t'.length = s.length ∧
      ∀ c, c < i + 1 → t'.getD c 0 = s0.getD c 0 + dt * waterSource (src.getD c 0) (mob.getD (2 * c) 0) (mob.getD (2 * c + 1) 0) := by
    intro v hv
    have hl : i < (t.set i (s0.getD i 0)).length := by simp; omega
    refine ⟨_, addAt_ok hl _, by simp [h1], fun c hc => ?_⟩
    rw [getD_addAt hl]
    by_cases hci : c = i
    · subst hci
      rw [if_pos rfl, hv]
      congr 1
      have : c < t.length := by omega
      simp [List.getD_eq_getElem?_getD, this]
    · rw [if_neg hci, add_zero, ← h2 c (by omega)]
      simp [List.getD_eq_getElem?_getD, Ne.symm hci]
  rw [rd_of_getElem? (getElem?_getD (a := s0) (j := i) (by omega)), bind_ok, wr_ok (by omega), bind_ok,
    rd_of_getElem? (getElem?_getD (a := src) (j := i) (by omega)), bind_ok]
  by_cases hq : 0 < src.getD i 0
  · rw [if_pos hq]
    exact key _ (by unfold waterSource; rw [if_pos hq])
  · rw [if_neg hq, rd_of_getElem? (getElem?_getD (a := mob) (j := 2 * i) (by omega)), bind_ok,
      rd_of_getElem? (getElem?_getD (a := mob) (j := 2 * i + 1) (by omega)), bind_ok]
    have hw := hd.wetCell i hi (not_lt.1 hq)
    rw [fdiv, if_neg hw.ne', bind_ok]
    refine key _ ?_
    unfold waterSource
    rw [if_neg hq]
    ring

/-- Upstream weighting by the code. -/
theorem faceMob_ok {mob : List Rat} {a b : Nat} {d gf : Rat} (ha : 2 * a + 1 < mob.length) (hb : 2 * b + 1 < mob.length) :
    ∃ m1 m2, faceMob mob a b d gf = .ok (m1, m2) ∧ (∃ x, (x = a ∨ x = b) ∧ m1 = mob.getD (2 * x) 0) ∧ (∃ y, (y = a ∨ y = b) ∧ m2 = mob.getD (2 * y + 1) 0) ∧
      ((∀ i, 0 ≤ mob.getD i 0) → 0 < m1 + m2 → (d ≠ 0 ∨ 0 ≤ gf) →
        IsUpwindFlux d gf (mob.getD (2 * a) 0) (mob.getD (2 * a + 1) 0) (mob.getD (2 * b) 0) (mob.getD (2 * b + 1) 0) (m1 / (m1 + m2) * (d + m2 * gf))) := by
  have e1 : ∀ p : Prop, [Decidable p] → rdI mob (if p then 2 * (a : Int) else 2 * (b : Int)) = .ok (mob.getD (2 * (if p then a else b)) 0) := by
    intro p _
    split
    · rw [show (2 * (a : Int)) = ((2 * a : Nat) : Int) by push_cast; rfl, rdI_natCast]
      exact rd_of_getElem? (getElem?_getD (by omega))
    · rw [show (2 * (b : Int)) = ((2 * b : Nat) : Int) by push_cast; rfl, rdI_natCast]
      exact rd_of_getElem? (getElem?_getD (by omega))
  have e2 : ∀ p : Prop, [Decidable p] → rdI mob (if p then 2 * (a : Int) + 1 else 2 * (b : Int) + 1) = .ok (mob.getD (2 * (if p then a else b) + 1) 0) := by
    intro p _
    split
    · rw [show (2 * (a : Int) + 1) = ((2 * a + 1 : Nat) : Int) by push_cast; rfl, rdI_natCast]
      exact rd_of_getElem? (getElem?_getD (by omega))
    · rw [show (2 * (b : Int) + 1) = ((2 * b + 1 : Nat) : Int) by push_cast; rfl, rdI_natCast]
      exact rd_of_getElem? (getElem?_getD (by omega))
  have ite_or : ∀ p : Prop, [Decidable p] → (if p then a else b) = a ∨ (if p then a else b) = b := by
    intro p _; split <;> simp
  unfold faceMob
  by_cases hs : (0 < d ∧ 0 < gf) ∨ (d < 0 ∧ gf < 0)
  · rw [if_pos hs, e1, bind_ok, e2, bind_ok]
    refine ⟨_, _, rfl, ⟨_, ite_or _, rfl⟩, ⟨_, ite_or _, rfl⟩, ?_⟩
    intro hn hpos _
    have n1 := hn (2 * (if 0 < d then a else b))
    have hsel : ∀ x, (x = a ∨ x = b) → (mob.getD (2 * x) 0 = mob.getD (2 * a) 0 ∨ mob.getD (2 * x) 0 = mob.getD (2 * b) 0) := by
      rintro x (rfl | rfl) <;> simp
    have hsel' : ∀ x, (x = a ∨ x = b) → (mob.getD (2 * x + 1) 0 = mob.getD (2 * a + 1) 0 ∨ mob.getD (2 * x + 1) 0 = mob.getD (2 * b + 1) 0) := by
      rintro x (rfl | rfl) <;> simp
    refine ⟨_, _, _, hpos, rfl, rfl, hsel _ (ite_or _), hsel' _ (ite_or _), ?_, ?_, ?_, ?_⟩
    · intro hq
      rcases hs with ⟨h1, _⟩ | ⟨h1, h2⟩
      · rw [if_pos h1]
      · exfalso
        refine absurd hq (not_lt.2 (mul_nonpos_of_nonneg_of_nonpos (div_nonneg n1 hpos.le) ?_))
        have := mul_nonpos_of_nonneg_of_nonpos (hn (2 * (if 0 < d - mob.getD (2 * (if 0 < d then a else b)) 0 * gf then a else b) + 1)) h2.le
        linarith
    · intro hq
      rcases hs with ⟨h1, h2⟩ | ⟨h1, h2⟩
      · exfalso
        refine absurd hq (not_lt.2 (mul_nonneg (div_nonneg n1 hpos.le) ?_))
        have := mul_nonneg (hn (2 * (if 0 < d - mob.getD (2 * (if 0 < d then a else b)) 0 * gf then a else b) + 1)) h2.le
        linarith
      · rw [if_neg (by linarith)]
    · intro hq
      have : 0 < d - mob.getD (2 * (if 0 < d then a else b)) 0 * gf := by
        by_contra hcon
        exact absurd hq (not_lt.2 (mul_nonpos_of_nonneg_of_nonpos (div_nonneg (hn _) hpos.le) (not_lt.1 hcon)))
      rw [if_pos this]
    · intro hq
      have : ¬ 0 < d - mob.getD (2 * (if 0 < d then a else b)) 0 * gf := by
        intro hcon
        exact absurd hq (not_lt.2 (mul_nonneg (div_nonneg (hn _) hpos.le) hcon.le))
      rw [if_neg this]
  · rw [if_neg hs, e2, bind_ok, e1, bind_ok]
    refine ⟨_, _, rfl, ⟨_, ite_or _, rfl⟩, ⟨_, ite_or _, rfl⟩, ?_⟩
    intro hn hpos hd
    have n1 := hn (2 * (if 0 < d + mob.getD (2 * (if 0 < d then a else b) + 1) 0 * gf then a else b))
    have n2 := hn (2 * (if 0 < d then a else b) + 1)
    have hsel : ∀ x, (x = a ∨ x = b) → (mob.getD (2 * x) 0 = mob.getD (2 * a) 0 ∨ mob.getD (2 * x) 0 = mob.getD (2 * b) 0) := by
      rintro x (rfl | rfl) <;> simp
    have hsel' : ∀ x, (x = a ∨ x = b) → (mob.getD (2 * x + 1) 0 = mob.getD (2 * a + 1) 0 ∨ mob.getD (2 * x + 1) 0 = mob.getD (2 * b + 1) 0) := by
      rintro x (rfl | rfl) <;> simp
    refine ⟨_, _, _, hpos, rfl, rfl, hsel _ (ite_or _), hsel' _ (ite_or _), ?_, ?_, ?_, ?_⟩
    · intro hq
      have : 0 < d + mob.getD (2 * (if 0 < d then a else b) + 1) 0 * gf := by
        by_contra hcon
        exact absurd hq (not_lt.2 (mul_nonpos_of_nonneg_of_nonpos (div_nonneg (hn _) hpos.le) (not_lt.1 hcon)))
      rw [if_pos this]
    · intro hq
      have : ¬ 0 < d + mob.getD (2 * (if 0 < d then a else b) + 1) 0 * gf := by
        intro hcon
        exact absurd hq (not_lt.2 (mul_nonneg (div_nonneg (hn _) hpos.le) hcon.le))
      rw [if_neg this]
    · intro hq
      by_cases h0 : 0 < d
      · rw [if_pos h0]
      · exfalso
        have hg : 0 ≤ gf := by
          rcases hd with hd | hd
          · by_contra hcon
            exact hs (Or.inr ⟨lt_of_le_of_ne (not_lt.1 h0) hd, not_le.1 hcon⟩)
          · exact hd
        refine absurd hq (not_lt.2 (mul_nonpos_of_nonneg_of_nonpos (div_nonneg n2 hpos.le) ?_))
        have := mul_nonneg n1 hg
        linarith
    · intro hq
      by_cases h0 : 0 < d
      · exfalso
        have hg : gf ≤ 0 := by
          by_contra hcon
          exact hs (Or.inl ⟨h0, not_le.1 hcon⟩)
        refine absurd hq (not_lt.2 (mul_nonneg (div_nonneg n2 hpos.le) ?_))
        have := mul_nonpos_of_nonneg_of_nonpos n1 hg
        linarith
      · rw [if_neg h0]

/-- What one face does. -/
theorem spuFace_ok {g : GridTopo} {s0 s mob dflux gflux src : List Rat} (hv : g.Valid) (hd : SpuData g s0 s mob dflux gflux src) (dt : Rat) {f : Nat} (hf : f < g.nf) :
    ∃ q, (∀ t : List Rat, g.nc ≤ t.length → ∃ t', spuFace g mob dflux gflux dt f t = .ok t' ∧ t'.length = t.length ∧
        ∀ c, t'.getD c 0 = t.getD c 0 + -(dt * ((if g.faceCells[2 * f]? = some (c : Int) then q else 0) - (if g.faceCells[2 * f + 1]? = some (c : Int) then q else 0)))) ∧
      (¬ g.Interior f → q = 0) ∧
      (∀ a b : Nat, g.Sides f a b → (dflux.getD f 0 ≠ 0 ∨ 0 ≤ gflux.getD f 0) →
        IsUpwindFlux (dflux.getD f 0) (gflux.getD f 0) (mob.getD (2 * a) 0) (mob.getD (2 * a + 1) 0) (mob.getD (2 * b) 0) (mob.getD (2 * b + 1) 0) q) := by
  obtain ⟨a, b, hs⟩ := hv.sides hf
  obtain ⟨ra, rb⟩ := hv.side_range hs
  have l3 := hd.lenMob
  have l5 := hd.lenD
  have l6 := hd.lenG
  by_cases hin : a ≠ -1 ∧ b ≠ -1
  · obtain ⟨a', rfl⟩ : ∃ a' : Nat, a = a' := ⟨a.toNat, by omega⟩
    obtain ⟨b', rfl⟩ : ∃ b' : Nat, b = b' := ⟨b.toNat, by omega⟩
    have hne : a' ≠ b' := by
      have := hv.distinct f _ _ hs (by omega)
      omega
    obtain ⟨m1, m2, em, ⟨x, hx, rfl⟩, ⟨y, hy, rfl⟩, hup⟩ := faceMob_ok (mob := mob) (a := a') (b := b') (d := dflux.getD f 0) (gf := gflux.getD f 0) (by omega) (by omega)
    have hw := hd.wetFace f a' b' x y hs hx hy
    refine ⟨mob.getD (2 * x) 0 / (mob.getD (2 * x) 0 + mob.getD (2 * y + 1) 0) * (dflux.getD f 0 + mob.getD (2 * y + 1) 0 * gflux.getD f 0),
      ?_, fun h => absurd ⟨a', b', hs⟩ h, ?_⟩
    · intro t ht
      have hta : a' < t.length := by omega
      have htb : b' < t.length := by omega
      unfold spuFace
      rw [rd_of_getElem? hs.1, bind_ok, rd_of_getElem? hs.2, bind_ok, if_pos hin, rd_of_getElem? (getElem?_getD (by omega)), bind_ok,
        rd_of_getElem? (getElem?_getD (by omega)), bind_ok, em, bind_ok, check_ok (by simpa using hw), bind_ok, fdiv, if_neg hw.ne', bind_ok,
        rdI_natCast, rd_of_getElem? (getElem?_getD hta), bind_ok, wrI_natCast, wr_ok hta, bind_ok, rdI_natCast,
        rd_of_getElem? (getElem?_getD (by simpa using htb)), bind_ok, wrI_natCast, wr_ok (by simpa using htb)]
      refine ⟨_, rfl, by simp, fun c => ?_⟩
      simp only [hs.1, hs.2, Option.some.injEq, Nat.cast_inj]
      by_cases hca : c = a'
      · subst hca
        rw [if_pos rfl, if_neg (Ne.symm hne)]
        simp only [List.getD_eq_getElem?_getD, List.getElem?_set, hta, if_neg (Ne.symm hne), if_true, Option.getD_some]
        ring
      · by_cases hcb : c = b'
        · subst hcb
          rw [if_neg hne, if_pos rfl]
          simp only [List.getD_eq_getElem?_getD, List.getElem?_set, List.length_set, htb, if_neg hne, if_true, Option.getD_some]
          ring
        · rw [if_neg (Ne.symm hca), if_neg (Ne.symm hcb)]
          simp only [List.getD_eq_getElem?_getD, List.getElem?_set, if_neg (Ne.symm hca), if_neg (Ne.symm hcb)]
          ring
    · intro a b hs' h0
      obtain ⟨e1, e2⟩ := hs.unique hs'
      obtain rfl : a' = a := by omega
      obtain rfl : b' = b := by omega
      exact hup hd.nonneg hw h0
  · refine ⟨0, ?_, fun _ => rfl, ?_⟩
    · intro t ht
      unfold spuFace
      rw [rd_of_getElem? hs.1, bind_ok, rd_of_getElem? hs.2, bind_ok, if_neg hin]
      exact ⟨t, rfl, rfl, fun c => by simp⟩
    · intro a' b' hs'
      obtain ⟨e1, e2⟩ := hs.unique hs'
      omega

theorem sum_netOutflow (g : GridTopo) (hv : g.Valid) (q : Nat → Rat) (hq : ∀ f, f < g.nf → ¬ g.Interior f → q f = 0) :
    ∑ c ∈ Finset.range g.nc, g.netOutflow q c = 0 := by
  unfold GridTopo.netOutflow
  rw [Finset.sum_comm]
  refine Finset.sum_eq_zero fun f hf => ?_
  have hf' := Finset.mem_range.1 hf
  by_cases hin : g.Interior f
  · obtain ⟨a, b, hs⟩ := hin
    obtain ⟨ra, rb⟩ := hv.side_range hs
    simp only [hs.1, hs.2, Option.some.injEq, Nat.cast_inj, Finset.sum_sub_distrib, Finset.sum_ite_eq, Finset.mem_range]
    rw [if_pos (by omega), if_pos (by omega), sub_self]
  · simp [hq f hf' hin]

/-- **C35.**  One step of the explicit transport solver: in each cell the saturation changes by `dt` times the water source minus `dt` times the net outflow of
a water flux `q` which is carried by the interior faces only and, on each of them, is the upstream weighted flux (with the exception treated below: no total
flux and negative gravity difference). -/
theorem spu_explicit_balance (g : GridTopo) (s0 s mob dflux gflux src : List Rat) (dt : Rat) (hv : g.Valid) (hd : SpuData g s0 s mob dflux gflux src) :
    ∃ s' q, spuExplicit g s0 s mob dflux gflux src dt = .ok s' ∧ s'.length = s.length ∧
      (∀ c, c < g.nc → s'[c]? = some (s0.getD c 0 + dt * waterSource (src.getD c 0) (mob.getD (2 * c) 0) (mob.getD (2 * c + 1) 0) - dt * g.netOutflow q c)) ∧
      (∀ f, f < g.nf → ¬ g.Interior f → q f = 0) ∧
      (∀ f a b : Nat, g.Sides f a b → (dflux.getD f 0 ≠ 0 ∨ 0 ≤ gflux.getD f 0) →
        IsUpwindFlux (dflux.getD f 0) (gflux.getD f 0) (mob.getD (2 * a) 0) (mob.getD (2 * a + 1) 0) (mob.getD (2 * b) 0) (mob.getD (2 * b + 1) 0) (q f)) := by
  have hex : ∀ f, ∃ q, f < g.nf → (∀ t : List Rat, g.nc ≤ t.length → ∃ t', spuFace g mob dflux gflux dt f t = .ok t' ∧ t'.length = t.length ∧
        ∀ c, t'.getD c 0 = t.getD c 0 + -(dt * ((if g.faceCells[2 * f]? = some (c : Int) then q else 0) - (if g.faceCells[2 * f + 1]? = some (c : Int) then q else 0)))) ∧
      (¬ g.Interior f → q = 0) ∧
      (∀ a b : Nat, g.Sides f a b → (dflux.getD f 0 ≠ 0 ∨ 0 ≤ gflux.getD f 0) →
        IsUpwindFlux (dflux.getD f 0) (gflux.getD f 0) (mob.getD (2 * a) 0) (mob.getD (2 * a + 1) 0) (mob.getD (2 * b) 0) (mob.getD (2 * b + 1) 0) q) := by
    intro f
    by_cases hf : f < g.nf
    · obtain ⟨q, h⟩ := spuFace_ok hv hd dt hf
      exact ⟨q, fun _ => h⟩
    · exact ⟨0, fun h => absurd h hf⟩
  choose q hq using hex
  obtain ⟨t, et, hl, ht⟩ := spuSources_ok hd dt
  obtain ⟨t', et', hl', ht'⟩ := loop_sum (n := g.nf) (f := spuFace g mob dflux gflux dt) (s := t) (fun t => t.length = s.length) (fun t (c : Nat) => t.getD c 0)
    (fun f c => -(dt * ((if g.faceCells[2 * f]? = some (c : Int) then q f else 0) - (if g.faceCells[2 * f + 1]? = some (c : Int) then q f else 0)))) hl
    (fun f t hf ht => by
      obtain ⟨t', e, h1, h2⟩ := (hq f hf).1 t (by rw [ht]; exact hd.lenS)
      exact ⟨t', e, by omega, h2⟩)
  refine ⟨t', q, ?_, hl', ?_, fun f hf => (hq f hf).2.1, fun f a b hs => (hq f (hs.lt hv)).2.2 a b hs⟩
  · unfold spuExplicit
    rw [et, bind_ok]
    exact et'
  · intro c hc
    rw [getElem?_getD (by have := hd.lenS; omega), ht' c, ht c hc, Finset.sum_neg_distrib, ← Finset.mul_sum, sub_eq_add_neg]
    rfl

/-- **C35.**  The total saturation changes exactly by what the sources inject and produce. -/
theorem spu_explicit_conserves (g : GridTopo) (s0 s mob dflux gflux src : List Rat) (dt : Rat) (hv : g.Valid) (hd : SpuData g s0 s mob dflux gflux src) :
    ∃ s', spuExplicit g s0 s mob dflux gflux src dt = .ok s' ∧
      ∑ c ∈ Finset.range g.nc, s'.getD c 0 = ∑ c ∈ Finset.range g.nc, s0.getD c 0 +
        dt * ∑ c ∈ Finset.range g.nc, waterSource (src.getD c 0) (mob.getD (2 * c) 0) (mob.getD (2 * c + 1) 0) := by
  obtain ⟨s', q, e, _, h, hq, _⟩ := spu_explicit_balance g s0 s mob dflux gflux src dt hv hd
  refine ⟨s', e, ?_⟩
  have : ∀ c ∈ Finset.range g.nc, s'.getD c 0 = s0.getD c 0 + dt * waterSource (src.getD c 0) (mob.getD (2 * c) 0) (mob.getD (2 * c + 1) 0) - dt * g.netOutflow q c := by
    intro c hc
    rw [List.getD_eq_getElem?_getD, h c (Finset.mem_range.1 hc)]
    rfl
  rw [Finset.sum_congr rfl this, Finset.sum_sub_distrib, Finset.sum_add_distrib, ← Finset.mul_sum, ← Finset.mul_sum, sum_netOutflow g hv q hq]
  ring

/-- A mesh of two cells with one interior face and two boundary faces. -/
def twoCells : GridTopo := { nc := 2, nf := 3, faceCells := [-1, 0, 0, 1, 1, -1], cellFacepos := [0, 2, 4], cellFaces := [0, 1, 1, 2] }

example : twoCells.Valid := GridTopo.ValidB.valid (by decide +kernel)

/-- A step with injection, production, viscous flow and gravity. -/
example : spuExplicit twoCells [1/2, 1/4] [7, 7] [1, 1, 1/2, 3/2] [0, 2, 0] [0, 1, 0] [2, -2] (1/10) = .ok [11/20, 7/20] := by decide +kernel

example : SpuData twoCells [1/2, 1/4] [7, 7] [1, 1, 1/2, 3/2] [0, 2, 0] [0, 1, 0] [2, -2] := by
  have hm : ∀ i, 0 ≤ ([1, 1, 1/2, 3/2] : List Rat).getD i 0 := by
    intro i
    match i with
    | 0 => decide +kernel
    | 1 => decide +kernel
    | 2 => decide +kernel
    | 3 => decide +kernel
    | n + 4 => simp
  refine ⟨by decide, by decide, by decide, by decide, by decide, by decide, hm, by decide +kernel, ?_⟩
  have hw : ∀ x : Nat, x < 2 → ∀ y : Nat, y < 2 → 0 < ([1, 1, 1/2, 3/2] : List Rat).getD (2 * x) 0 + ([1, 1, 1/2, 3/2] : List Rat).getD (2 * y + 1) 0 := by decide +kernel
  intro f a b x y hs hx hy
  have hr : ∀ c ∈ twoCells.faceCells, c < 2 := by decide
  have h1 := hr _ (List.mem_of_getElem? hs.1)
  have h2 := hr _ (List.mem_of_getElem? hs.2)
  exact hw x (by omega) y (by omega)

/-- **C35, exception.**  With no total flux and a negative gravity difference the oil flows from the first side to the second, but the code takes its mobility
from the second: the flux is not the upstream weighted one. -/
theorem counterflow_without_total_flux_is_not_upwind :
    ∃ mob s', spuExplicit twoCells [1/2, 1/2] [0, 0] mob [0, 0, 0] [0, -1, 0] [1, 1] 1 = .ok s' ∧ s' = [2, 1] ∧
      ¬ IsUpwindFlux 0 (-1) (mob.getD 0 0) (mob.getD 1 0) (mob.getD 2 0) (mob.getD 3 0) (-1/2) := by
  refine ⟨[1, 2, 1, 1], [2, 1], by decide +kernel, rfl, ?_⟩
  rintro ⟨m1, m2, qo, hp, hq, hqo, h1, h2, h3, h4, h5, h6⟩
  simp only [List.getD_cons_zero, List.getD_cons_succ] at *
  have e1 : m1 = 1 := by rcases h1 with h | h <;> exact h
  subst e1
  rcases h2 with rfl | rfl
  · norm_num at hq
  · have : (0 : Rat) < qo := by rw [hqo]; norm_num
    have := h5 this
    norm_num at this

end Opm.Spu
