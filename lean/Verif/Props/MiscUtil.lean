import Verif.Proofs.MiscUtil
/-!
# Volumes, averages and mobilities

Properties of `computePorevolume`, `computeSaturatedVol`, `computeAverageSat`, `computeInjectedProduced`, `computePhaseMobilities`, `computeTotalMobility`,
`computeTotalMobilityOmega`, `computeFractionalFlow`, `toWaterSat` and `toBothSat`.
-/

namespace Opm.MiscUtil
open Opm Opm.IfsTpfa

/-- **Saturation packing round trip.**  `toBothSat` succeeds for every saturation vector and whatever its output vector held before; its result has two entries
per cell that add up to one, and `toWaterSat` gives back the original vector. -/
theorem both_water_round_trip (sw junk junk' : List Rat) :
    ∃ both, toBothSat sw junk = .ok both ∧ both.length = 2 * sw.length ∧
      (∀ i, i < sw.length → both.getD (2 * i) 0 = sw.getD i 0 ∧ both.getD (2 * i) 0 + both.getD (2 * i + 1) 0 = 1) ∧ toWaterSat both junk' = .ok sw := by
  have hlen := length_vresize junk (2 * sw.length)
  obtain ⟨t, e, h1, h2⟩ := loop_inv (n := sw.length) (s := vresize junk (2 * sw.length))
    (f := fun i sb => do
      let x ← rd sw i
      let sb ← wr sb (2 * i) x
      let x ← rd sw i
      wr sb (2 * i + 1) (1 - x))
    (P := fun k (t : List Rat) => t.length = 2 * sw.length ∧ ∀ i, i < k → t.getD (2 * i) 0 = sw.getD i 0 ∧ t.getD (2 * i + 1) 0 = 1 - sw.getD i 0)
    ⟨hlen, by simp⟩ (by
      rintro i t hi ⟨h1, h2⟩
      rw [rdD hi, bind_ok, wr_ok (by omega), bind_ok, bind_ok, wr_ok (by simp; omega)]
      refine ⟨_, rfl, ?_, ?_⟩
      · simpa using h1
      · intro j hj
        rw [getD_set (by simp; omega), getD_set (by omega), getD_set (by simp; omega), getD_set (by omega)]
        rcases Nat.lt_or_ge j i with hji | hji
        · rw [if_neg (by omega), if_neg (by omega), if_neg (by omega), if_neg (by omega)]
          exact h2 j hji
        · obtain rfl : j = i := by omega
          rw [if_neg (by omega), if_pos rfl, if_pos rfl]
          exact ⟨rfl, rfl⟩)
  refine ⟨t, e, h1, fun i hi => ⟨(h2 i hi).1, by rw [(h2 i hi).1, (h2 i hi).2]; ring⟩, ?_⟩
  have hd : t.length / 2 = sw.length := by omega
  obtain ⟨t', e', h1', h2', _⟩ := loop_write (n := sw.length) (s := vresize junk' sw.length) (f := fun i sw => do
    let x ← rd t (2 * i)
    wr sw i x) (fun i => sw.getD i 0) (by rw [length_vresize]) (by
      intro i u hi _
      rw [rdD (by omega), bind_ok, (h2 i hi).1])
  unfold toWaterSat
  rw [hd, e']
  congr 1
  rw [length_vresize] at h1'
  refine List.ext_getElem? fun i => ?_
  rcases Nat.lt_or_ge i sw.length with hi | hi
  · rw [getElem?_getD (by omega), getElem?_getD hi, h2' i hi]
  · rw [List.getElem?_eq_none (by omega), List.getElem?_eq_none hi]

example : toBothSat [1/4, 1] [7] = .ok [1/4, 3/4, 1, 0] ∧ toWaterSat [1/4, 3/4, 1, 0] [] = .ok [1/4, 1] := by decide +kernel

/-- **Pore volumes.**  The pore volume of a cell is its porosity times its volume (times the multiplier at its pressure). -/
theorem porevolume_eq (nc : Nat) {vol porosity : List Rat} (junk : List Rat) (hv : nc ≤ vol.length) (hp : nc ≤ porosity.length) :
    ∃ pv, computePorevolume nc vol porosity junk = .ok pv ∧ pv.length = nc ∧ ∀ c, c < nc → pv.getD c 0 = porosity.getD c 0 * vol.getD c 0 := by
  obtain ⟨t, e, h1, h2, _⟩ := loop_write (n := nc) (s := vresize junk nc) (f := fun i pv => do
    let phi ← rd porosity i
    let v ← rd vol i
    wr pv i (phi * v)) (fun i => porosity.getD i 0 * vol.getD i 0) (by rw [length_vresize]) (by
      intro i t hi _
      rw [rdD (by omega), bind_ok, rdD (by omega), bind_ok])
  exact ⟨t, e, by rw [h1, length_vresize], h2⟩

theorem porevolume_comp_eq (nc : Nat) {vol porosity pressure : List Rat} (junk : List Rat) {mult : Rat → M Rat} {m : Rat → Rat} (hm : ∀ p, mult p = .ok (m p))
    (hv : nc ≤ vol.length) (hp : nc ≤ porosity.length) (hq : nc ≤ pressure.length) :
    ∃ pv, computePorevolumeComp mult nc vol porosity pressure junk = .ok pv ∧ pv.length = nc ∧
      ∀ c, c < nc → pv.getD c 0 = porosity.getD c 0 * vol.getD c 0 * m (pressure.getD c 0) := by
  obtain ⟨t, e, h1, h2, _⟩ := loop_write (n := nc) (s := vresize junk nc) (f := fun i pv => do
    let phi ← rd porosity i
    let v ← rd vol i
    let p ← rd pressure i
    let m ← mult p
    wr pv i (phi * v * m)) (fun i => porosity.getD i 0 * vol.getD i 0 * m (pressure.getD i 0)) (by rw [length_vresize]) (by
      intro i t hi _
      rw [rdD (by omega), bind_ok, rdD (by omega), bind_ok, rdD (by omega), bind_ok, hm, bind_ok])
  exact ⟨t, e, by rw [h1, length_vresize], h2⟩

/-- The reservoir porosity times the cell volume is the pore volume. -/
theorem porosity_consistent (nc : Nat) {vol porosity pressure : List Rat} (junk junk' : List Rat) {mult : Rat → M Rat} {m : Rat → Rat} (hm : ∀ p, mult p = .ok (m p))
    (hv : nc ≤ vol.length) (hp : nc ≤ porosity.length) (hq : nc ≤ pressure.length) :
    ∃ phi pv, computePorosity mult nc porosity pressure junk = .ok phi ∧ computePorevolumeComp mult nc vol porosity pressure junk' = .ok pv ∧
      phi.length = nc ∧ (∀ c, c < nc → phi.getD c 0 = porosity.getD c 0 * m (pressure.getD c 0)) ∧ ∀ c, c < nc → pv.getD c 0 = phi.getD c 0 * vol.getD c 0 := by
  obtain ⟨t, e, h1, h2, _⟩ := loop_write (n := nc) (s := vresize junk nc) (f := fun i pv => do
    let phi ← rd porosity i
    let p ← rd pressure i
    let m ← mult p
    wr pv i (phi * m)) (fun i => porosity.getD i 0 * m (pressure.getD i 0)) (by rw [length_vresize]) (by
      intro i t hi _
      rw [rdD (by omega), bind_ok, rdD (by omega), bind_ok, hm, bind_ok])
  obtain ⟨pv, e', h3, h4⟩ := porevolume_comp_eq nc junk' hm hv hp hq
  refine ⟨t, pv, e, e', by rw [h1, length_vresize], h2, fun c hc => ?_⟩
  rw [h4 c hc, h2 c hc]
  ring

example : computePorevolume 2 [10, 20] [1/2, 1/4] [] = .ok [5, 5] ∧
    computePorevolumeComp (fun p => .ok (1 + p)) 2 [10, 20] [1/2, 1/4] [0, 1] [3] = .ok [5, 10] ∧
    computePorosity (fun p => .ok (1 + p)) 2 [1/2, 1/4] [0, 1] [] = .ok [1/2, 1/2] := by decide +kernel

/-- **Saturated volumes.**  `computeSaturatedVol` returns the volume of each phase, whatever the output array held before; the array keeps its size. -/
theorem saturated_vol_eq {pv s out : List Rat} {np : Nat} (h0 : pv ≠ []) (hs : s.length = np * pv.length) (ho : np ≤ out.length) :
    ∃ r, computeSaturatedVol pv s out = .ok r ∧ r.length = out.length ∧ (∀ p, p < np → r.getD p 0 = phaseVolume np pv s p) ∧
      ∀ p, np ≤ p → r.getD p 0 = out.getD p 0 := by
  obtain ⟨a, e1, h1, h2, h2'⟩ := fillZero_ok ho
  obtain ⟨t, e2, h3, h4⟩ := loop_sum (n := pv.length) (s := a) (f := fun c a => loop np (fun p a => do
      let v ← rd pv c
      let x ← rd s (np * c + p)
      addAt a p (v * x)) a)
    (Ok := fun t : List Rat => t.length = out.length) (V := fun t r => t.getD r 0)
    (g := fun c r => ∑ p ∈ Finset.range np, if r = p then pv.getD c 0 * s.getD (np * c + p) 0 else 0) h1 (by
      intro c t hc ht
      obtain ⟨u, e, hu, hv⟩ := satLoop_ok (a := t) hs (by omega) hc
      exact ⟨u, e, by omega, hv⟩)
  refine ⟨t, ?_, h3, fun p hp => ?_, fun p hp => ?_⟩
  · unfold computeSaturatedVol
    rw [numPhases_ok h0 hs, bind_ok, e1, bind_ok]
    exact e2
  · rw [h4, h2 p hp, zero_add]
    unfold phaseVolume
    exact Finset.sum_congr rfl fun c _ => sum_phase hp _
  · rw [h4, h2' p hp, Finset.sum_eq_zero (fun c _ => sum_phase_out hp _), add_zero]

example : computeSaturatedVol [10, 20] [1/2, 1/2, 1/4, 3/4] [9, 9] = .ok [10, 20] := by decide +kernel

/-- **Average saturations.**  `computeAverageSat` returns the pore-volume weighted averages. -/
theorem average_sat_eq {pv s out : List Rat} {np : Nat} (h0 : pv ≠ []) (hs : s.length = np * pv.length) (ho : np ≤ out.length) (hv : totalVolume pv ≠ 0) :
    ∃ r, computeAverageSat pv s out = .ok r ∧ r.length = out.length ∧ ∀ p, p < np → r.getD p 0 = phaseVolume np pv s p / totalVolume pv := by
  obtain ⟨a, e1, h1, h2, h2'⟩ := fillZero_ok ho
  obtain ⟨t, e2, h3, h4⟩ := loop_sum (n := pv.length) (s := ((0 : Rat), a)) (f := fun c (r : Rat × List Rat) => do
      let v ← rd pv c
      let a ← loop np (fun p a => do
        let v ← rd pv c
        let x ← rd s (np * c + p)
        addAt a p (v * x)) r.2
      .ok (r.1 + v, a))
    (Ok := fun t : Rat × List Rat => t.2.length = out.length) (V := fun t (r : Option Nat) => match r with | none => t.1 | some r => t.2.getD r 0)
    (g := fun c r => match r with | none => pv.getD c 0 | some r => ∑ p ∈ Finset.range np, if r = p then pv.getD c 0 * s.getD (np * c + p) 0 else 0) h1 (by
      intro c t hc ht
      obtain ⟨u, e, hu, hv⟩ := satLoop_ok (a := t.2) hs (by omega) hc
      refine ⟨(t.1 + pv.getD c 0, u), ?_, by simp only; omega, ?_⟩
      · simp only [e]
        rw [rdD hc]
        rfl
      · intro r
        cases r with
        | none => rfl
        | some r => exact hv r)
  have ht1 : t.1 = totalVolume pv := by have := h4 none; simpa [totalVolume] using this
  have ht2 : ∀ p, p < np → t.2.getD p 0 = phaseVolume np pv s p := by
    intro p hp
    have := h4 (some p)
    simp only at this
    rw [this, h2 p hp, zero_add]
    exact Finset.sum_congr rfl fun c _ => sum_phase hp _
  obtain ⟨u, e3, h5, h6⟩ := loop_inv (n := np) (s := t.2) (f := fun p a => do
      let x ← rd a p
      let y ← fdiv x t.1
      wr a p y) (P := fun k (u : List Rat) => u.length = out.length ∧ (∀ p, p < k → u.getD p 0 = phaseVolume np pv s p / totalVolume pv) ∧
        ∀ p, k ≤ p → u.getD p 0 = t.2.getD p 0) ⟨h3, by simp, by simp⟩ (by
      rintro p u hp ⟨h1, h2, h3⟩
      rw [rdD (by omega), bind_ok, ht1, fdiv_ok hv, bind_ok, wr_ok (by omega)]
      refine ⟨_, rfl, ?_, ?_, ?_⟩
      · simpa using h1
      · intro q hq
        rw [getD_set (by omega)]
        split
        · subst_vars; rw [h3 _ (le_refl _), ht2 _ hp]
        · exact h2 q (by omega)
      · intro q hq
        rw [getD_set (by omega), if_neg (by omega)]
        exact h3 q (by omega))
  refine ⟨u, ?_, h5, fun p hp => h6.1 p hp⟩
  unfold computeAverageSat
  rw [numPhases_ok h0 hs, bind_ok, e1, bind_ok]
  exact (congrArg (· >>= _) e2).trans e3

/-- **Averages are averages.**  With positive pore volumes, an average saturation lies between any bounds on the saturations of the cells, and if the saturations
of each cell add up to one so do the averages. -/
theorem average_sat_bounds {pv s out : List Rat} {np : Nat} (h0 : pv ≠ []) (hs : s.length = np * pv.length) (ho : np ≤ out.length)
    (hpv : ∀ c, c < pv.length → 0 < pv.getD c 0) :
    ∃ r, computeAverageSat pv s out = .ok r ∧
      (∀ lo hi p, p < np → (∀ c, c < pv.length → lo ≤ s.getD (np * c + p) 0 ∧ s.getD (np * c + p) 0 ≤ hi) → lo ≤ r.getD p 0 ∧ r.getD p 0 ≤ hi) ∧
      ((∀ c, c < pv.length → ∑ p ∈ Finset.range np, s.getD (np * c + p) 0 = 1) → ∑ p ∈ Finset.range np, r.getD p 0 = 1) := by
  have htot : 0 < totalVolume pv := by
    refine Finset.sum_pos (fun c hc => hpv c (Finset.mem_range.1 hc)) ?_
    exact Finset.nonempty_range_iff.2 (by have := List.length_pos_iff.2 h0; omega)
  obtain ⟨r, e, _, hr⟩ := average_sat_eq h0 hs ho (ne_of_gt htot)
  refine ⟨r, e, ?_, ?_⟩
  · intro lo hi p hp hb
    rw [hr p hp, le_div_iff₀ htot, div_le_iff₀ htot]
    unfold totalVolume phaseVolume
    rw [Finset.mul_sum, Finset.mul_sum]
    constructor
    · refine Finset.sum_le_sum fun c hc => ?_
      have hc := Finset.mem_range.1 hc
      rw [mul_comm]
      exact mul_le_mul_of_nonneg_left (hb c hc).1 (le_of_lt (hpv c hc))
    · refine Finset.sum_le_sum fun c hc => ?_
      have hc := Finset.mem_range.1 hc
      rw [mul_comm hi]
      exact mul_le_mul_of_nonneg_left (hb c hc).2 (le_of_lt (hpv c hc))
  · intro h1
    rw [Finset.sum_congr rfl (fun p hp => hr p (Finset.mem_range.1 hp)), ← Finset.sum_div]
    have : ∑ p ∈ Finset.range np, phaseVolume np pv s p = totalVolume pv := by
      unfold phaseVolume totalVolume
      rw [Finset.sum_comm]
      refine Finset.sum_congr rfl fun c hc => ?_
      rw [← Finset.mul_sum, h1 c (Finset.mem_range.1 hc), mul_one]
    rw [this, div_self (ne_of_gt htot)]

example : computeAverageSat [10, 30] [1/2, 1/2, 1/4, 3/4] [9, 9] = .ok [5/16, 11/16] := by decide +kernel

/-- Without cells the phase count is a division by zero, and vectors of incompatible sizes are rejected. -/
theorem average_sat_rejects (s out : List Rat) : computeAverageSat [] s out = .error .ub ∧ computeSaturatedVol [] s out = .error .ub ∧
    ∀ pv : List Rat, pv ≠ [] → (∀ np, s.length ≠ np * pv.length) → computeAverageSat pv s out = .error .thrown ∧ computeSaturatedVol pv s out = .error .thrown := by
  refine ⟨rfl, rfl, fun pv h h' => ?_⟩
  have hl : 0 < pv.length := List.length_pos_iff.2 h
  have : numPhases s pv = .error .thrown := by
    unfold numPhases
    rw [if_neg (by omega), if_pos]
    rw [Nat.mul_comm]
    exact h' _
  constructor
  · unfold computeAverageSat; rw [this]; rfl
  · unfold computeSaturatedVol; rw [this]; rfl

example : computeAverageSat [1, 1] [1, 1, 1] [0] = .error .thrown := by decide +kernel

end Opm.MiscUtil
