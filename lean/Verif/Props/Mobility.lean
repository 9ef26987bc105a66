import Verif.Proofs.Mobility
/-!
# Mobilities, fractional flows, injected and produced volumes

Properties of `computePhaseMobilities`, `computeTotalMobility`, `computeTotalMobilityOmega`, `computeFractionalFlow` and `computeInjectedProduced`.
-/

namespace Opm.MiscUtil
open Opm Opm.IfsTpfa

/-- **Phase mobilities** are relative permeability over viscosity, for each requested cell and phase. -/
theorem phase_mobilities_eq {P : Props} (hP : P.Ok) {cells : List Int} {s : List Rat} (hs : s.length = cells.length * P.np) :
    ∃ pm, computePhaseMobilities P cells s = .ok pm ∧ pm.length = cells.length * P.np ∧
      ∀ i p, i < cells.length → p < P.np → pm.getD (i * P.np + p) 0 = mobility P cells s i p := phaseMobilities_ok hP hs

/-- **Total mobility** is the sum of the phase mobilities. -/
theorem total_mobility_eq {P : Props} (hP : P.Ok) {cells : List Int} {s : List Rat} (hs : s.length = cells.length * P.np) :
    ∃ t, computeTotalMobility P cells s = .ok t ∧ t.length = cells.length ∧ ∀ i, i < cells.length → t.getD i 0 = totalMobility P cells s i := by
  obtain ⟨pm, e, h1, h2⟩ := phaseMobilities_ok hP hs
  obtain ⟨t, e', h3, h4⟩ := loop_sum (n := cells.length) (s := List.replicate cells.length (0 : Rat)) (f := fun c t => loop P.np (fun p t => do
      let m ← rd pm (c * P.np + p)
      addAt t c m) t)
    (Ok := fun t : List Rat => t.length = cells.length) (V := fun t r => t.getD r 0) (g := fun c r => if r = c then totalMobility P cells s c else 0) (by simp) (by
      intro c t hc ht
      obtain ⟨u, e, g1, g2⟩ := loop_addAt (n := P.np) (s := t) (f := fun p t => do
        let m ← rd pm (c * P.np + p)
        addAt t c m) (fun _ => c) (fun p => mobility P cells s c p) (by
          intro p t hp _
          rw [rdD (by rw [h1]; exact idx_lt' hc hp), bind_ok, h2 c p hc hp]) (fun p hp => by omega)
      refine ⟨u, e, by omega, fun r => ?_⟩
      rw [g2]
      congr 1
      by_cases hr : r = c
      · simp [hr, totalMobility]
      · simp [hr])
  refine ⟨t, ?_, h3, fun i hi => ?_⟩
  · unfold computeTotalMobility
    rw [e, bind_ok]
    exact e'
  · rw [h4, sum_phase hi]
    simp [List.getD_eq_getElem?_getD, hi]

/-- **Omega** is the mobility-weighted density: it is computed when all total mobilities are nonzero, and lies between the densities of the phases if the
mobilities are not negative. -/
theorem omega_eq {P : Props} (hP : P.Ok) {cells : List Int} {s : List Rat} (hs : s.length = cells.length * P.np)
    (hm : ∀ i, i < cells.length → totalMobility P cells s i ≠ 0) :
    ∃ t o, computeTotalMobilityOmega P cells s = .ok (t, o) ∧ t.length = cells.length ∧ o.length = cells.length ∧
      (∀ i, i < cells.length → t.getD i 0 = totalMobility P cells s i ∧
        o.getD i 0 = (∑ p ∈ Finset.range P.np, mobility P cells s i p * P.density.getD p 0) / totalMobility P cells s i) ∧
      ∀ i lo hi, i < cells.length → (∀ p, p < P.np → 0 ≤ mobility P cells s i p) → (∀ p, p < P.np → lo ≤ P.density.getD p 0 ∧ P.density.getD p 0 ≤ hi) →
        lo ≤ o.getD i 0 ∧ o.getD i 0 ≤ hi := by
  obtain ⟨pm, e, h1, h2⟩ := phaseMobilities_ok hP hs
  obtain ⟨r, e', h3, h4, h5, _⟩ := loop_inv (n := cells.length) (s := (List.replicate cells.length (0 : Rat), List.replicate cells.length (0 : Rat)))
    (f := fun c (r : List Rat × List Rat) => do
      let r ← loop P.np (fun p (r : List Rat × List Rat) => do
        let m ← rd pm (c * P.np + p)
        let rho ← rd P.density p
        let t ← addAt r.1 c m
        let o ← addAt r.2 c (m * rho)
        .ok (t, o)) r
      let o ← rd r.2 c
      let t ← rd r.1 c
      let y ← fdiv o t
      let om ← wr r.2 c y
      .ok (r.1, om))
    (P := fun k (r : List Rat × List Rat) => r.1.length = cells.length ∧ r.2.length = cells.length ∧
      (∀ i, i < k → r.1.getD i 0 = totalMobility P cells s i ∧
        r.2.getD i 0 = (∑ p ∈ Finset.range P.np, mobility P cells s i p * P.density.getD p 0) / totalMobility P cells s i) ∧
      ∀ i, k ≤ i → r.1.getD i 0 = 0 ∧ r.2.getD i 0 = 0) ⟨by simp, by simp, by simp, by
        intro i _
        simp only [List.getD_eq_getElem?_getD, List.getElem?_replicate]
        split <;> simp⟩ (by
      rintro c r hc ⟨h3, h4, h5, h6⟩
      obtain ⟨u, eu, ⟨u1, u2⟩, g⟩ := loop_sum (n := P.np) (s := r) (f := fun p (r : List Rat × List Rat) => do
          let m ← rd pm (c * P.np + p)
          let rho ← rd P.density p
          let t ← addAt r.1 c m
          let o ← addAt r.2 c (m * rho)
          .ok (t, o))
        (Ok := fun t : List Rat × List Rat => t.1.length = cells.length ∧ t.2.length = cells.length)
        (V := fun t (r : Bool × Nat) => cond r.1 (t.1.getD r.2 0) (t.2.getD r.2 0))
        (g := fun p r => if r.2 = c then cond r.1 (mobility P cells s c p) (mobility P cells s c p * P.density.getD p 0) else 0) ⟨h3, h4⟩ (by
          rintro p t hp ⟨t1, t2⟩
          rw [rdD (by rw [h1]; exact idx_lt' hc hp), bind_ok, h2 c p hc hp, rdD (by rw [hP.dens]; exact hp), bind_ok, addAt_ok (by omega), bind_ok,
            addAt_ok (by omega), bind_ok]
          refine ⟨_, rfl, ⟨by simpa using t1, by simpa using t2⟩, ?_⟩
          rintro ⟨b, r⟩
          cases b
          · exact getD_addAt (by omega) _ _
          · exact getD_addAt (by omega) _ _)
      have gt : ∀ i, u.1.getD i 0 = r.1.getD i 0 + if i = c then totalMobility P cells s c else 0 := by
        intro i
        have := g (true, i)
        simp only [cond] at this
        rw [this]
        split <;> simp [totalMobility]
      have go : ∀ i, u.2.getD i 0 = r.2.getD i 0 + if i = c then ∑ p ∈ Finset.range P.np, mobility P cells s c p * P.density.getD p 0 else 0 := by
        intro i
        have := g (false, i)
        simp only [cond] at this
        rw [this]
        split <;> simp
      have g1 : u.1.getD c 0 = totalMobility P cells s c := by rw [gt, (h6 c (le_refl _)).1]; simp
      have g2 : u.2.getD c 0 = ∑ p ∈ Finset.range P.np, mobility P cells s c p * P.density.getD p 0 := by rw [go, (h6 c (le_refl _)).2]; simp
      rw [eu, bind_ok, rdD (by omega), bind_ok, rdD (by omega), bind_ok, g1, fdiv_ok (hm c hc), bind_ok, wr_ok (by omega), bind_ok]
      refine ⟨_, rfl, u1, by simpa using u2, ?_, ?_⟩
      · intro i hi
        simp only
        rw [getD_set (by omega)]
        by_cases hic : i = c
        · subst hic; rw [if_pos rfl]; exact ⟨g1, by rw [g2]⟩
        · rw [if_neg hic, gt, go, if_neg hic, if_neg hic, add_zero, add_zero]
          exact h5 i (by omega)
      · intro i hi
        simp only
        rw [getD_set (by omega), if_neg (by omega), gt, go, if_neg (by omega), if_neg (by omega), add_zero, add_zero]
        exact h6 i (by omega))
  refine ⟨r.1, r.2, ?_, h3, h4, h5, ?_⟩
  · unfold computeTotalMobilityOmega
    rw [e, bind_ok]
    exact e'
  · intro i lo hi hi' hnn hb
    have hpos : 0 < totalMobility P cells s i :=
      lt_of_le_of_ne (Finset.sum_nonneg fun p hp => hnn p (Finset.mem_range.1 hp)) (Ne.symm (hm i hi'))
    rw [(h5 i hi').2, le_div_iff₀ hpos, div_le_iff₀ hpos]
    unfold totalMobility
    rw [Finset.mul_sum, Finset.mul_sum]
    constructor
    · refine Finset.sum_le_sum fun p hp => ?_
      rw [mul_comm]
      exact mul_le_mul_of_nonneg_left (hb p (Finset.mem_range.1 hp)).1 (hnn p (Finset.mem_range.1 hp))
    · refine Finset.sum_le_sum fun p hp => ?_
      rw [mul_comm hi]
      exact mul_le_mul_of_nonneg_left (hb p (Finset.mem_range.1 hp)).2 (hnn p (Finset.mem_range.1 hp))

/-- **Fractional flows** are mobility over total mobility; those of a cell add up to one, and are fractions if the mobilities are not negative. -/
theorem fractional_flow_eq {P : Props} (hP : P.Ok) {cells : List Int} {s : List Rat} (hs : s.length = cells.length * P.np)
    (hm : ∀ i, i < cells.length → totalMobility P cells s i ≠ 0) :
    ∃ ff, computeFractionalFlow P cells s = .ok ff ∧ ff.length = cells.length * P.np ∧
      (∀ i p, i < cells.length → p < P.np → ff.getD (i * P.np + p) 0 = mobility P cells s i p / totalMobility P cells s i) ∧
      (∀ i, i < cells.length → ∑ p ∈ Finset.range P.np, ff.getD (i * P.np + p) 0 = 1) ∧
      ∀ i p, i < cells.length → p < P.np → (∀ q, q < P.np → 0 ≤ mobility P cells s i q) →
        0 ≤ ff.getD (i * P.np + p) 0 ∧ ff.getD (i * P.np + p) 0 ≤ 1 := by
  obtain ⟨pm, e, h1, h2⟩ := phaseMobilities_ok hP hs
  obtain ⟨ff, e', h3, h4, _⟩ := loop_inv (n := cells.length) (s := pm) (f := fun i ff => do
      let sum ← loop P.np (fun p (sum : Rat) => do
        let x ← rd ff (i * P.np + p)
        .ok (sum + x)) 0
      loop P.np (fun p ff => do
        let x ← rd ff (i * P.np + p)
        let y ← fdiv x sum
        wr ff (i * P.np + p) y) ff)
    (P := fun k (ff : List Rat) => ff.length = cells.length * P.np ∧
      (∀ i p, i < k → p < P.np → ff.getD (i * P.np + p) 0 = mobility P cells s i p / totalMobility P cells s i) ∧
      ∀ i p, k ≤ i → i < cells.length → p < P.np → ff.getD (i * P.np + p) 0 = mobility P cells s i p) ⟨h1, by simp, fun i p _ hi hp => h2 i p hi hp⟩ (by
      rintro c ff hc ⟨h3, h4, h5⟩
      have hsum : loop P.np (fun p (sum : Rat) => do
          let x ← rd ff (c * P.np + p)
          .ok (sum + x)) 0 = .ok (totalMobility P cells s c) := by
        rw [loop_rat (fun p => mobility P cells s c p) (by
          intro p t hp
          rw [rdD (by rw [h3]; exact idx_lt' hc hp), bind_ok, h5 c p (le_refl _) hc hp]), zero_add]
        rfl
      rw [hsum, bind_ok]
      obtain ⟨u, eu, g1, g2, g3⟩ := loop_inv (n := P.np) (s := ff) (f := fun p ff => do
          let x ← rd ff (c * P.np + p)
          let y ← fdiv x (totalMobility P cells s c)
          wr ff (c * P.np + p) y)
        (P := fun k (u : List Rat) => u.length = cells.length * P.np ∧ (∀ p, p < k → u.getD (c * P.np + p) 0 = mobility P cells s c p / totalMobility P cells s c) ∧
          ∀ i p, i < cells.length → p < P.np → (i = c → k ≤ p) → u.getD (i * P.np + p) 0 = ff.getD (i * P.np + p) 0) ⟨h3, by simp, fun _ _ _ _ _ => rfl⟩ (by
          rintro p u hp ⟨g1, g2, g3⟩
          have hlt := idx_lt' hc hp
          rw [rdD (by omega), bind_ok, fdiv_ok (hm c hc), bind_ok, wr_ok (by omega)]
          refine ⟨_, rfl, by simpa using g1, ?_, ?_⟩
          · intro q hq
            rw [getD_set (by omega)]
            by_cases hqp : q = p
            · subst hqp
              rw [if_pos rfl, g3 c q hc hp (fun _ => le_refl _), h5 c q (le_refl _) hc hp]
            · rw [if_neg (by omega)]; exact g2 q (by omega)
          · intro i q hi hq hic
            rw [getD_set (by omega), if_neg]
            · exact g3 i q hi hq (fun h => by have := hic h; omega)
            · intro h
              obtain ⟨h', h''⟩ := idx_inj' hq hp h
              have := hic h'
              omega)
      refine ⟨u, eu, g1, ?_, ?_⟩
      · intro i p hi hp
        by_cases hic : i = c
        · subst hic; exact g2 p hp
        · rw [g3 i p (by omega) hp (fun h => absurd h hic)]; exact h4 i p (by omega) hp
      · intro i p hi hi' hp
        rw [g3 i p hi' hp (fun h => by omega)]
        exact h5 i p (by omega) hi' hp)
  refine ⟨ff, ?_, h3, h4, ?_, ?_⟩
  · unfold computeFractionalFlow
    rw [e, bind_ok]
    exact e'
  · intro i hi
    rw [Finset.sum_congr rfl (fun p hp => h4 i p hi (Finset.mem_range.1 hp)), ← Finset.sum_div]
    exact div_self (hm i hi)
  · intro i p hi hp hnn
    have hpos : 0 < totalMobility P cells s i :=
      lt_of_le_of_ne (Finset.sum_nonneg fun p hp => hnn p (Finset.mem_range.1 hp)) (Ne.symm (hm i hi))
    rw [h4 i p hi hp, div_le_one₀ hpos]
    exact ⟨div_nonneg (hnn p hp) (le_of_lt hpos), Finset.single_le_sum (fun q hq => hnn q (Finset.mem_range.1 hq)) (Finset.mem_range.2 hp)⟩

/-- **Injected and produced volumes.**  Everything flowing in is injected as the first phase; what flows out of a cell is produced in the proportions of the phase
mobilities of the cell. -/
theorem injected_produced_eq {P : Props} (hP : P.Ok) (h1p : 0 < P.np) {s src inj prod : List Rat} (h0 : src ≠ []) (hs : s.length = P.np * src.length) (dt : Rat)
    (hi : P.np ≤ inj.length) (hp : P.np ≤ prod.length)
    (hm : ∀ c, c < src.length → src.getD c 0 < 0 → totalMobility P [(c : Int)] (cellSat P.np s c) 0 ≠ 0) :
    ∃ i o, computeInjectedProduced P s src dt inj prod = .ok (i, o) ∧
      i.getD 0 0 = dt * ∑ c ∈ Finset.range src.length, pos (src.getD c 0) ∧ (∀ p, 0 < p → p < P.np → i.getD p 0 = 0) ∧
      ∀ p, p < P.np → o.getD p 0 = dt * ∑ c ∈ Finset.range src.length, pos (-src.getD c 0) * outFraction P s c p := by
  obtain ⟨a, ea, a1, a2, _⟩ := fillZero_ok hi
  obtain ⟨b, eb, b1, b2, _⟩ := fillZero_ok hp
  obtain ⟨r, e, ⟨r1, r2⟩, hr⟩ := loop_sum (n := src.length) (s := (a, b)) (f := fun c (r : List Rat × List Rat) => do
      let q ← rd src c
      if q > 0 then do
        let inj ← addAt r.1 0 (q * dt)
        .ok (inj, r.2)
      else if q < 0 then do
        let flux := -q * dt
        let m ← mobilities P P.np (P.relperm ((s.drop (P.np * c)).take P.np) [(c : Int)])
        let prod ← loop P.np (fun p prod => do
          let x ← rd m.1 p
          let y ← fdiv x m.2
          addAt prod p (y * flux)) r.2
        .ok (r.1, prod)
      else .ok r)
    (Ok := fun t : List Rat × List Rat => t.1.length = inj.length ∧ t.2.length = prod.length)
    (V := fun t (r : Bool × Nat) => cond r.1 (t.1.getD r.2 0) (t.2.getD r.2 0))
    (g := fun c r => cond r.1 (if r.2 = 0 then pos (src.getD c 0) * dt else 0)
      (∑ p ∈ Finset.range P.np, if r.2 = p then pos (-src.getD c 0) * outFraction P s c p * dt else 0)) ⟨a1, b1⟩ (by
      rintro c ⟨t1, t2⟩ hc ⟨h1, h2⟩
      simp only at h1 h2
      rw [rdD hc, bind_ok]
      by_cases hq : src.getD c 0 > 0
      · rw [if_pos hq, addAt_ok (by simp only; omega), bind_ok]
        refine ⟨_, rfl, ⟨by simpa using h1, h2⟩, ?_⟩
        rintro ⟨b, r⟩
        cases b
        · have : pos (-src.getD c 0) = 0 := if_neg (by linarith)
          simp only [this, cond, zero_mul, ite_self, Finset.sum_const_zero, add_zero]
        · have : pos (src.getD c 0) = src.getD c 0 := if_pos hq
          simp only [this, cond]
          exact getD_addAt (by omega) _ _
      · rw [if_neg hq]
        have hp0 : pos (src.getD c 0) = 0 := if_neg hq
        by_cases hn : src.getD c 0 < 0
        · rw [if_pos hn]
          have hcs := length_cellSat hs hc
          have hkr := hP.kr (cellSat P.np s c) [(c : Int)] (by simpa using hcs)
          obtain ⟨m, em, m1, m2, m3⟩ := mobilities_ok hP (kr := P.relperm (cellSat P.np s c) [(c : Int)]) (by simpa using hkr)
          have htm : m.2 = totalMobility P [(c : Int)] (cellSat P.np s c) 0 := by rw [m3]; simp [totalMobility, mobility]
          have em' : mobilities P P.np (P.relperm ((s.drop (P.np * c)).take P.np) [(c : Int)]) = .ok m := em
          have hpos : pos (-src.getD c 0) = -src.getD c 0 := if_pos (by linarith)
          obtain ⟨u, eu, u1, u2⟩ := loop_addAt (n := P.np) (s := t2) (f := fun p prod => do
            let x ← rd m.1 p
            let y ← fdiv x m.2
            addAt prod p (y * (-src.getD c 0 * dt))) (fun p => p) (fun p => pos (-src.getD c 0) * outFraction P s c p * dt) (by
              intro p t hp ht
              rw [rdD (by omega), bind_ok, htm, fdiv_ok (hm c hc hn), bind_ok, m2 p hp, hpos]
              congr 1
              unfold outFraction mobility
              rw [zero_mul, zero_add]
              ring) (fun p hp => by omega)
          rw [em', bind_ok, eu, bind_ok]
          refine ⟨_, rfl, ⟨h1, by simp only; omega⟩, ?_⟩
          rintro ⟨b, r⟩
          cases b
          · exact u2 r
          · simp only [hp0, cond, zero_mul, ite_self, add_zero]
        · rw [if_neg hn]
          refine ⟨_, rfl, ⟨h1, h2⟩, ?_⟩
          have hpos : pos (-src.getD c 0) = 0 := if_neg (by linarith)
          rintro ⟨b, r⟩
          cases b <;> simp only [hp0, hpos, cond, zero_mul, ite_self, Finset.sum_const_zero, add_zero])
  refine ⟨r.1, r.2, ?_, ?_, ?_, ?_⟩
  · unfold computeInjectedProduced
    rw [numPhases_ok h0 hs, bind_ok, ea, bind_ok, eb, bind_ok]
    exact e
  · have := hr (true, 0)
    simp only [cond, if_true] at this
    rw [this, a2 0 h1p, zero_add, Finset.mul_sum]
    exact Finset.sum_congr rfl fun c _ => mul_comm _ _
  · intro p h hp
    have := hr (true, p)
    simp only [cond, if_neg (by omega : ¬ p = 0)] at this
    rw [this, a2 p hp]
    simp
  · intro p hp
    have := hr (false, p)
    simp only [cond] at this
    rw [this, b2 p hp, zero_add, Finset.mul_sum]
    refine Finset.sum_congr rfl fun c _ => ?_
    rw [sum_phase hp]
    ring

/-- **Total volumes balance.**  Summed over the phases, the produced volume is the time step times the total outflow, so injected minus produced is the time step
times the sum of all sources. -/
theorem injected_minus_produced {P : Props} (hP : P.Ok) (h1p : 0 < P.np) {s src inj prod : List Rat} (h0 : src ≠ []) (hs : s.length = P.np * src.length) (dt : Rat)
    (hi : P.np ≤ inj.length) (hp : P.np ≤ prod.length)
    (hm : ∀ c, c < src.length → src.getD c 0 < 0 → totalMobility P [(c : Int)] (cellSat P.np s c) 0 ≠ 0) :
    ∃ i o, computeInjectedProduced P s src dt inj prod = .ok (i, o) ∧
      ∑ p ∈ Finset.range P.np, i.getD p 0 - ∑ p ∈ Finset.range P.np, o.getD p 0 = dt * ∑ c ∈ Finset.range src.length, src.getD c 0 := by
  obtain ⟨i, o, e, h1, h2, h3⟩ := injected_produced_eq hP h1p h0 hs dt hi hp hm
  refine ⟨i, o, e, ?_⟩
  have hI : ∑ p ∈ Finset.range P.np, i.getD p 0 = dt * ∑ c ∈ Finset.range src.length, pos (src.getD c 0) := by
    rw [Finset.sum_eq_single 0, h1]
    · intro p hp hp0; exact h2 p (by omega) (Finset.mem_range.1 hp)
    · intro h; exact absurd (Finset.mem_range.2 h1p) h
  rw [hI, Finset.sum_congr rfl (fun p hp => h3 p (Finset.mem_range.1 hp)), ← Finset.mul_sum, Finset.sum_comm, ← mul_sub, ← Finset.sum_sub_distrib]
  congr 1
  refine Finset.sum_congr rfl fun c hc => ?_
  rw [← Finset.mul_sum]
  by_cases hn : src.getD c 0 < 0
  · have h1 : pos (src.getD c 0) = 0 := if_neg (by linarith)
    have h2 : pos (-src.getD c 0) = -src.getD c 0 := if_pos (by linarith)
    have h3 : ∑ p ∈ Finset.range P.np, outFraction P s c p = 1 := by
      unfold outFraction
      rw [← Finset.sum_div]
      exact div_self (hm c (Finset.mem_range.1 hc) hn)
    rw [h1, h2, h3]
    ring
  · have h2 : pos (-src.getD c 0) = 0 := if_neg (by linarith)
    rw [h2]
    unfold pos
    split
    · ring
    · linarith

namespace Demo

/-- A two-phase fluid whose relative permeabilities are the saturations, water half as viscous as oil. -/
def fluid : Props := { np := 2, visc := [1/2, 1], density := [1000, 800], relperm := fun s _ => s }

theorem fluid_ok : fluid.Ok where
  visc := rfl
  pos := by decide +kernel
  dens := rfl
  kr := fun _ _ h => h

example : computeFractionalFlow fluid [0, 1] [1/2, 1/2, 0, 1] = .ok [2/3, 1/3, 0, 1] ∧ computeTotalMobility fluid [0, 1] [1/2, 1/2, 0, 1] = .ok [3/2, 1] ∧
    computeTotalMobilityOmega fluid [0, 1] [1/2, 1/2, 0, 1] = .ok ([3/2, 1], [2800/3, 800]) ∧
    computeInjectedProduced fluid [1/2, 1/2, 1/2, 1/2] [3, -3] 2 [9, 9] [9, 9] = .ok ([6, 0], [4, 2]) := by decide +kernel

example : ∀ i, i < [(0 : Int), 1].length → totalMobility fluid [0, 1] [1/2, 1/2, 0, 1] i ≠ 0 := by decide +kernel

end Demo

end Opm.MiscUtil
