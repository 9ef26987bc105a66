import Verif.Model.MiscBlackoil
import Verif.Props.Mobility
import Verif.Props.TransportSource
import Verif.Props.CompressibleReorder
/-!
# Utilities for black-oil problems

Properties of `computePhaseMobilities`, `computeTotalMobility`, `computeFractionalFlow`, `computeInjectedProduced` and `computeTransportSource` for black-oil properties.
-/

namespace Opm.MiscBlackoil
open Opm
open Opm.MiscUtil (rdD pos idx_lt' idx_inj' loop_addAt sum_phase Wells2 overPerfs)

/-- The numbers of point `i`. -/
def point (np : Nat) (l : List Rat) (i : Nat) : List Rat := (l.drop (np * i)).take np

/-- What the properties must promise: numbers for all phases and positive viscosities. -/
structure Props.Ok (P : Props) : Prop where
  kr : ∀ y c, y.length = P.np → (P.relperm y c).length = P.np
  mu : ∀ x y c, y.length = P.np → (P.viscosity x y c).length = P.np
  muPos : ∀ x y c p, p < P.np → 0 < (P.viscosity x y c).getD p 0
  mat : ∀ x y c, y.length = P.np → (P.matrix x y c).length = P.np * P.np

/-- The mobility of phase `ph` at point `i`, in the cell `c`: relative permeability over viscosity. -/
def mobility (P : Props) (p z s : List Rat) (i : Nat) (c : Int) (ph : Nat) : Rat :=
  (P.relperm (point P.np s i) c).getD ph 0 / (P.viscosity (p.getD i 0) (point P.np z i) c).getD ph 0

/-- The sum over the phases. -/
def totalMobility (P : Props) (p z s : List Rat) (i : Nat) (c : Int) : Rat := ∑ ph ∈ Finset.range P.np, mobility P p z s i c ph

private theorem sub_ok {l : List Rat} {np n i : Nat} (h : n * np ≤ l.length) (hi : i < n) : sub l (np * i) np = .ok (point np l i) ∧ (point np l i).length = np := by
  have : np * i + np ≤ n * np := by
    have := Nat.mul_le_mul_right np (show i + 1 ≤ n from hi)
    rw [Nat.succ_mul, Nat.mul_comm i] at this
    exact this
  unfold sub point
  rw [if_pos (by omega)]
  refine ⟨rfl, ?_⟩
  rw [List.length_take, List.length_drop]
  omega

private theorem batch_ok {n np : Nat} {f : Nat → M (List Rat)} (v : Nat → List Rat) (hf : ∀ i, i < n → f i = .ok (v i) ∧ (v i).length = np) :
    ∃ out, batch n f = .ok out ∧ out.length = n * np ∧ ∀ i p, i < n → p < np → out.getD (i * np + p) 0 = (v i).getD p 0 := by
  unfold batch
  refine loop_inv (P := fun k (out : List Rat) => out.length = k * np ∧ ∀ i p, i < k → p < np → out.getD (i * np + p) 0 = (v i).getD p 0) ⟨by simp, by simp⟩ ?_
  rintro k out hk ⟨h1, h2⟩
  rw [(hf k hk).1, bind_ok]
  refine ⟨_, rfl, by rw [List.length_append, h1, (hf k hk).2, Nat.succ_mul], fun i p hi hp => ?_⟩
  rcases Nat.lt_or_ge i k with h | h
  · rw [← h2 i p h hp]
    simp only [List.getD_eq_getElem?_getD]
    rw [List.getElem?_append_left (by rw [h1]; exact idx_lt' h hp)]
  · obtain rfl : i = k := by omega
    simp only [List.getD_eq_getElem?_getD]
    rw [List.getElem?_append_right (by omega), h1]
    congr 2
    omega

/-- **Phase mobilities** are relative permeability over viscosity, at the pressure, surface volumes and saturations of each point and in its cell. -/
theorem phase_mobilities_eq {P : Props} (hP : P.Ok) {cells : List Int} {p z s : List Rat} (hc : P.nc ≤ cells.length) (hp : P.nc ≤ p.length) (hz : P.nc * P.np ≤ z.length)
    (hs : s.length = P.nc * P.np) :
    ∃ pm, computePhaseMobilities P cells p z s = .ok pm ∧ pm.length = P.nc * P.np ∧
      ∀ i ph, i < P.nc → ph < P.np → pm.getD (i * P.np + ph) 0 = mobility P p z s i (cells.getD i 0) ph := by
  have hcell : ∀ i, i < P.nc → rd cells i = .ok (cells.getD i 0) := fun i hi => by
    refine rd_of_getElem? ?_
    rw [List.getD_eq_getElem?_getD, List.getElem?_eq_getElem (by omega)]; rfl
  obtain ⟨mu, e1, l1, v1⟩ := batch_ok (n := P.nc) (np := P.np) (f := fun i => do
    let c ← rd cells i
    let x ← rd p i
    let y ← sub z (P.np * i) P.np
    .ok (P.viscosity x y c)) (fun i => P.viscosity (p.getD i 0) (point P.np z i) (cells.getD i 0)) (fun i hi => by
      obtain ⟨a, b⟩ := sub_ok hz hi
      rw [hcell i hi, bind_ok, rdD (by omega), bind_ok, a, bind_ok]
      exact ⟨rfl, hP.mu _ _ _ b⟩)
  obtain ⟨kr, e2, l2, v2⟩ := batch_ok (n := P.nc) (np := P.np) (f := fun i => do
    let c ← rd cells i
    let y ← sub s (P.np * i) P.np
    .ok (P.relperm y c)) (fun i => P.relperm (point P.np s i) (cells.getD i 0)) (fun i hi => by
      obtain ⟨a, b⟩ := sub_ok hs.ge hi
      rw [hcell i hi, bind_ok, a, bind_ok]
      exact ⟨rfl, hP.kr _ _ b⟩)
  have hpos : ∀ k, k < P.nc * P.np → mu.getD k 0 ≠ 0 := by
    intro k hk
    have h0 : 0 < P.np := by
      rcases Nat.eq_zero_or_pos P.np with h | h
      · rw [h] at hk; omega
      · exact h
    have hlt : k / P.np < P.nc := Nat.div_lt_of_lt_mul (by rw [Nat.mul_comm]; exact hk)
    have hm : k % P.np < P.np := Nat.mod_lt _ h0
    have e : k / P.np * P.np + k % P.np = k := by rw [Nat.mul_comm]; exact Nat.div_add_mod k P.np
    have := v1 (k / P.np) (k % P.np) hlt hm
    rw [e] at this
    rw [this]
    exact (hP.muPos _ _ _ _ hm).ne'
  obtain ⟨pm, e3, l3, v3, -⟩ := loop_writes (n := kr.length) (s := kr) (f := fun k m => do
    let x ← rd m k
    let y ← rd mu k
    let v ← fdiv x y
    wr m k v) (fun k => k) (fun k => kr.getD k 0 / mu.getD k 0) (fun k hk => hk) (fun _ _ _ _ h => h) (by
      intro k t hk ht hv
      rw [rdD (by omega), bind_ok, rdD (by omega), bind_ok, fdiv_ok (hpos k (by omega)), bind_ok, hv])
  refine ⟨pm, ?_, by omega, fun i ph hi hph => ?_⟩
  · unfold computePhaseMobilities
    rw [check_ok (by simp [hs]), bind_ok, e1, bind_ok, e2, bind_ok, e3]
  · rw [v3 _ (by rw [l2]; exact idx_lt' hi hph), v1 i ph hi hph, v2 i ph hi hph]
    rfl

/-- The functions work for all cells of the properties, whatever the number of cells asked for: with fewer cells in the list they read past its end. -/
theorem fewer_cells_undefined {P : Props} {cells : List Int} {p z s : List Rat} (hc : cells.length < P.nc) (hp : P.nc ≤ p.length) (hz : P.nc * P.np ≤ z.length)
    (hs : s.length = P.nc * P.np) : computePhaseMobilities P cells p z s = .error .ub := by
  have hb : ∀ n, cells.length < n → ∀ f : Nat → Int → M (List Rat), (∀ i c, i < n → ∃ v, f i c = .ok v) → batch n (fun i => do
      let c ← rd cells i
      f i c) = .error .ub := by
    intro n
    induction n with
    | zero => intro h; omega
    | succ n ih =>
      intro h f hf
      unfold batch
      rw [loop_succ]
      rcases Nat.lt_or_ge cells.length n with h' | h'
      · have := ih h' f (fun i c hi => hf i c (by omega))
        unfold batch at this
        rw [this]
        rfl
      · obtain rfl : n = cells.length := by omega
        obtain ⟨out, e, -⟩ := loop_inv (n := cells.length) (s := ([] : List Rat)) (f := fun i out => do
            let v ← (do
              let c ← rd cells i
              f i c)
            .ok (out ++ v)) (fun _ _ => True) trivial (by
          intro i out hi _
          obtain ⟨v, e⟩ := hf i cells[i] (by omega)
          rw [rd_ok hi, bind_ok, e, bind_ok]
          exact ⟨_, rfl, trivial⟩)
        rw [e, bind_ok]
        show (do
          let v ← (do
            let c ← rd cells cells.length
            f cells.length c)
          Except.ok (out ++ v) : M (List Rat)) = _
        rw [rd_ub (le_refl _), bind_error, bind_error]
  unfold computePhaseMobilities
  rw [check_ok (by simp [hs]), bind_ok, hb P.nc hc (fun i c => do
    let x ← rd p i
    let y ← sub z (P.np * i) P.np
    .ok (P.viscosity x y c)) (fun i c hi => by
      rw [rdD (by omega), bind_ok, (sub_ok hz hi).1, bind_ok]
      exact ⟨_, rfl⟩)]
  rfl

/-- **Total mobility** is the sum of the phase mobilities. -/
theorem total_mobility_eq {P : Props} (hP : P.Ok) {cells : List Int} {p z s : List Rat} (hc : cells.length = P.nc) (hp : P.nc ≤ p.length) (hz : P.nc * P.np ≤ z.length)
    (hs : s.length = P.nc * P.np) :
    ∃ t, computeTotalMobility P cells p z s = .ok t ∧ t.length = P.nc ∧ ∀ i, i < P.nc → t.getD i 0 = totalMobility P p z s i (cells.getD i 0) := by
  obtain ⟨pm, e, h1, h2⟩ := phase_mobilities_eq hP hc.ge hp hz hs
  obtain ⟨t, e', h3, h4⟩ := loop_sum (n := cells.length) (s := List.replicate cells.length (0 : Rat)) (f := fun c t => loop P.np (fun ph t => do
      let m ← rd pm (c * P.np + ph)
      addAt t c m) t)
    (Ok := fun t : List Rat => t.length = cells.length) (V := fun t r => t.getD r 0) (g := fun c r => if r = c then totalMobility P p z s c (cells.getD c 0) else 0) (by simp) (by
      intro c t hc' ht
      obtain ⟨u, e, g1, g2⟩ := loop_addAt (n := P.np) (s := t) (f := fun ph t => do
        let m ← rd pm (c * P.np + ph)
        addAt t c m) (fun _ => c) (fun ph => mobility P p z s c (cells.getD c 0) ph) (by
          intro ph t hph _
          rw [rdD (by rw [h1]; exact idx_lt' (by omega) hph), bind_ok, h2 c ph (by omega) hph]) (fun p hp => by omega)
      refine ⟨u, e, by omega, fun r => ?_⟩
      rw [g2]
      congr 1
      by_cases hr : r = c
      · simp [hr, totalMobility]
      · simp [hr])
  refine ⟨t, ?_, by omega, fun i hi => ?_⟩
  · unfold computeTotalMobility
    rw [e, bind_ok]
    exact e'
  · rw [h4, sum_phase (by omega)]
    simp [List.getD_eq_getElem?_getD, hc, hi]

private theorem normalise_ok {np n i : Nat} {ff : List Rat} (hl : ff.length = n * np) (hi : i < n) (h : ∑ ph ∈ Finset.range np, ff.getD (i * np + ph) 0 ≠ 0) :
    ∃ t, normalise np i ff = .ok t ∧ t.length = ff.length ∧ (∀ ph, ph < np → t.getD (i * np + ph) 0 = ff.getD (i * np + ph) 0 / ∑ ph ∈ Finset.range np, ff.getD (i * np + ph) 0) ∧
      ∀ k, (∀ ph, ph < np → i * np + ph ≠ k) → t.getD k 0 = ff.getD k 0 := by
  obtain ⟨sum, e, hsum⟩ := loop_inv (n := np) (s := (0 : Rat)) (f := fun ph sum => do
    let m ← rd ff (i * np + ph)
    .ok (sum + m)) (fun k (t : Rat) => t = ∑ ph ∈ Finset.range k, ff.getD (i * np + ph) 0) (by simp) (by
      intro k t hk ht
      rw [rdD (by rw [hl]; exact idx_lt' hi hk), bind_ok]
      exact ⟨_, rfl, by rw [Finset.sum_range_succ, ht]⟩)
  subst hsum
  unfold normalise
  rw [e, bind_ok]
  exact loop_writes (n := np) (s := ff) (fun ph => i * np + ph) (fun ph => ff.getD (i * np + ph) 0 / ∑ ph ∈ Finset.range np, ff.getD (i * np + ph) 0)
    (fun ph hph => by rw [hl]; exact idx_lt' hi hph) (fun a b _ _ e => by omega) (by
      intro ph t hph ht hv
      rw [rdD (by rw [ht, hl]; exact idx_lt' hi hph), bind_ok, hv, fdiv_ok h, bind_ok])

/-- **Fractional flows** are the shares of the phase mobilities in the total mobility; they add up to one. -/
theorem fractional_flow_eq {P : Props} (hP : P.Ok) {cells : List Int} {p z s : List Rat} (hc : cells.length = P.nc) (hp : P.nc ≤ p.length) (hz : P.nc * P.np ≤ z.length)
    (hs : s.length = P.nc * P.np) (hm : ∀ i, i < P.nc → totalMobility P p z s i (cells.getD i 0) ≠ 0) :
    ∃ ff, computeFractionalFlow P cells p z s = .ok ff ∧ ff.length = P.nc * P.np ∧
      (∀ i ph, i < P.nc → ph < P.np → ff.getD (i * P.np + ph) 0 = mobility P p z s i (cells.getD i 0) ph / totalMobility P p z s i (cells.getD i 0)) ∧
      ∀ i, i < P.nc → ∑ ph ∈ Finset.range P.np, ff.getD (i * P.np + ph) 0 = 1 := by
  obtain ⟨pm, e, h1, h2⟩ := phase_mobilities_eq hP hc.ge hp hz hs
  have hsum : ∀ i, i < P.nc → ∑ ph ∈ Finset.range P.np, pm.getD (i * P.np + ph) 0 = totalMobility P p z s i (cells.getD i 0) := fun i hi =>
    Finset.sum_congr rfl fun ph hph => h2 i ph hi (Finset.mem_range.1 hph)
  obtain ⟨t, e', l, v, -⟩ := loop_blocks (n := cells.length) (f := normalise P.np) (s := pm) 0 P.np
    (fun i ph => mobility P p z s i (cells.getD i 0) ph / totalMobility P p z s i (cells.getD i 0)) (by
      intro i t hi ht hv
      simp only [Nat.zero_add] at hv ⊢
      have hi' : i < P.nc := by omega
      have hs' : ∑ ph ∈ Finset.range P.np, t.getD (i * P.np + ph) 0 = totalMobility P p z s i (cells.getD i 0) := by
        rw [← hsum i hi']
        exact Finset.sum_congr rfl fun ph hph => hv ph (Finset.mem_range.1 hph)
      obtain ⟨u, eu, u1, u2, u3⟩ := normalise_ok (np := P.np) (n := P.nc) (i := i) (ff := t) (by omega) hi' (by rw [hs']; exact hm i hi')
      refine ⟨u, eu, by omega, fun j hj => ?_, u3⟩
      rw [u2 j hj, hs', hv j hj, h2 i j hi' hj])
  simp only [Nat.zero_add] at v
  have v' : ∀ i ph, i < P.nc → ph < P.np → t.getD (i * P.np + ph) 0 = mobility P p z s i (cells.getD i 0) ph / totalMobility P p z s i (cells.getD i 0) :=
    fun i ph hi hph => v i ph (by omega) hph
  refine ⟨t, ?_, by omega, v', fun i hi => ?_⟩
  · unfold computeFractionalFlow
    rw [e, bind_ok, e']
  · rw [Finset.sum_congr rfl (fun ph hph => v' i ph hi (Finset.mem_range.1 hph)), ← Finset.sum_div]
    exact div_self (hm i hi)

/-! ### Injected and produced volumes -/

/-- The surface volume of component `q` in a unit of what flows out of cell `c`: the phases flow in the proportions of their mobilities. -/
def outContent (P : Props) (press s z : List Rat) (c q : Nat) : Rat :=
  ∑ p ∈ Finset.range P.np, mobility P press z s c c p / totalMobility P press z s c c * (P.matrix (press.getD c 0) (point P.np z c) c).getD (q + P.np * p) 0

private theorem mobilities_ok {np : Nat} {kr mu : List Rat} (hk : kr.length = np) (hm : mu.length = np) (hpos : ∀ p, p < np → mu.getD p 0 ≠ 0) :
    ∃ m, mobilities np kr mu = .ok m ∧ m.1.length = np ∧ (∀ p, p < np → m.1.getD p 0 = kr.getD p 0 / mu.getD p 0) ∧ m.2 = ∑ p ∈ Finset.range np, kr.getD p 0 / mu.getD p 0 := by
  obtain ⟨m, e, h1, h2, h3, h4⟩ := loop_inv (n := np) (s := (kr, (0 : Rat))) (f := fun p (t : List Rat × Rat) => do
    let x ← rd t.1 p
    let y ← rd mu p
    let v ← fdiv x y
    let m ← wr t.1 p v
    .ok (m, t.2 + v)) (fun k (t : List Rat × Rat) => t.1.length = np ∧ (∀ p, p < k → t.1.getD p 0 = kr.getD p 0 / mu.getD p 0) ∧ (∀ p, k ≤ p → t.1.getD p 0 = kr.getD p 0) ∧
      t.2 = ∑ p ∈ Finset.range k, kr.getD p 0 / mu.getD p 0) ⟨hk, by simp, by simp, by simp⟩ (by
      rintro k ⟨t, x⟩ hk ⟨h1, h2, h3, h4⟩
      simp only at h1 h2 h3 h4
      rw [rdD (by simp only; omega), bind_ok, rdD (by omega), bind_ok, h3 k (le_refl _), fdiv_ok (hpos k hk), bind_ok, wr_ok (by simp only; omega), bind_ok]
      refine ⟨_, rfl, by simp [h1], fun p hp => ?_, fun p hp => ?_, ?_⟩
      · by_cases e : p = k
        · subst e
          simp only [List.getD_eq_getElem?_getD, List.getElem?_set_self (show p < t.length by omega)]
          rfl
        · simp only [List.getD_eq_getElem?_getD, List.getElem?_set_ne (fun h => e h.symm)]
          have := h2 p (by omega)
          simpa only [List.getD_eq_getElem?_getD] using this
      · simp only [List.getD_eq_getElem?_getD, List.getElem?_set_ne (show k ≠ p by omega)]
        have := h3 p (by omega)
        simpa only [List.getD_eq_getElem?_getD] using this
      · simp only
        rw [Finset.sum_range_succ, h4])
  exact ⟨m, e, h1, fun p hp => h2 p hp, h4⟩

private theorem surfaceVolumes_ok {np : Nat} {mob A : List Rat} (hm : mob.length = np) (hA : A.length = np * np) {tot : Rat} (ht : tot ≠ 0) (flux : Rat) :
    ∃ out, surfaceVolumes np mob tot flux A = .ok out ∧ out.length = np ∧ ∀ q, q < np → out.getD q 0 = ∑ p ∈ Finset.range np, mob.getD p 0 / tot * flux * A.getD (q + np * p) 0 := by
  obtain ⟨out, e, h1, h2⟩ := loop_sum (n := np) (s := List.replicate np (0 : Rat)) (f := fun p out => do
    let m ← rd mob p
    let y ← fdiv m tot
    loop np (fun q out => do
      let a ← rd A (q + np * p)
      addAt out q (y * flux * a)) out)
    (Ok := fun t : List Rat => t.length = np) (V := fun t r => t.getD r 0)
    (g := fun p r => ∑ q ∈ Finset.range np, if r = q then mob.getD p 0 / tot * flux * A.getD (q + np * p) 0 else 0) (by simp) (by
      intro p t hp htl
      rw [rdD (by omega), bind_ok, fdiv_ok ht, bind_ok]
      obtain ⟨u, e, u1, u2⟩ := loop_addAt (n := np) (s := t) (f := fun q out => do
        let a ← rd A (q + np * p)
        addAt out q (mob.getD p 0 / tot * flux * a)) (fun q => q) (fun q => mob.getD p 0 / tot * flux * A.getD (q + np * p) 0) (by
          intro q t hq _
          have : q + np * p < np * np := by
            have := Nat.mul_le_mul_left np (show p + 1 ≤ np from hp)
            rw [Nat.mul_succ] at this
            omega
          rw [rdD (by omega), bind_ok]) (fun q hq => by omega)
      exact ⟨u, e, by omega, u2⟩)
  refine ⟨out, e, h1, fun q hq => ?_⟩
  rw [h2]
  have : (List.replicate np (0 : Rat)).getD q 0 = 0 := by simp [List.getD_eq_getElem?_getD, hq]
  rw [this, zero_add]
  exact Finset.sum_congr rfl fun p _ => sum_phase hq _

/-- **Injected and produced surface volumes.**  What flows in is injected as surface volume of the first phase; what flows out of a cell is produced in the proportions of
the phase mobilities of the cell, converted to surface volumes by the matrix of the cell. -/
theorem injected_produced_eq {P : Props} (hP : P.Ok) (h1p : 0 < P.np) {press s z src inj prod : List Rat} (hn : P.nc = src.length) (hpr : src.length ≤ press.length)
    (hs : s.length = src.length * P.np) (hz : src.length * P.np ≤ z.length) (dt : Rat) (hi : P.np ≤ inj.length) (hp : P.np ≤ prod.length)
    (hm : ∀ c, c < src.length → src.getD c 0 < 0 → totalMobility P press z s c c ≠ 0) :
    ∃ i o, computeInjectedProduced P press s z src dt inj prod = .ok (i, o) ∧
      i.getD 0 0 = dt * ∑ c ∈ Finset.range src.length, pos (src.getD c 0) ∧ (∀ p, 0 < p → p < P.np → i.getD p 0 = 0) ∧
      ∀ q, q < P.np → o.getD q 0 = dt * ∑ c ∈ Finset.range src.length, pos (-src.getD c 0) * outContent P press s z c q := by
  obtain ⟨a, ea, a1, a2, _⟩ := MiscUtil.fillZero_ok hi
  obtain ⟨b, eb, b1, b2, _⟩ := MiscUtil.fillZero_ok hp
  obtain ⟨r, e, ⟨r1, r2⟩, hr⟩ := loop_sum (n := src.length) (s := (a, b)) (f := cellVolumes P press s z src dt)
    (Ok := fun t : List Rat × List Rat => t.1.length = inj.length ∧ t.2.length = prod.length)
    (V := fun t (r : Bool × Nat) => cond r.1 (t.1.getD r.2 0) (t.2.getD r.2 0))
    (g := fun c r => cond r.1 (if r.2 = 0 then pos (src.getD c 0) * dt else 0)
      (∑ p ∈ Finset.range P.np, if r.2 = p then pos (-src.getD c 0) * outContent P press s z c p * dt else 0)) ⟨a1, b1⟩ (by
      rintro c ⟨t1, t2⟩ hc ⟨h1, h2⟩
      simp only at h1 h2
      unfold cellVolumes
      rw [rdD hc, bind_ok]
      by_cases hq : src.getD c 0 > 0
      · rw [if_pos hq, addAt_ok (by simp only; omega), bind_ok]
        refine ⟨_, rfl, ⟨by simpa using h1, h2⟩, ?_⟩
        rintro ⟨b, r⟩
        cases b
        · have : pos (-src.getD c 0) = 0 := if_neg (by linarith)
          simp only [this, cond, zero_mul, ite_self, Finset.sum_const_zero, add_zero]
        · have : pos (src.getD c 0) = src.getD c 0 := if_pos hq
          simp only [this, cond]
          exact getD_addAt (by omega) _ _
      · rw [if_neg hq]
        have hp0 : pos (src.getD c 0) = 0 := if_neg hq
        by_cases hneg : src.getD c 0 < 0
        · rw [if_pos hneg]
          have hpos : pos (-src.getD c 0) = -src.getD c 0 := if_pos (by linarith)
          obtain ⟨es, ls⟩ := sub_ok hs.ge hc
          obtain ⟨ez, lz⟩ := sub_ok hz hc
          obtain ⟨m, em, m1, m2, m3⟩ := mobilities_ok (hP.kr _ (c : Int) ls) (hP.mu (press.getD c 0) _ (c : Int) lz) (fun p hp => (hP.muPos _ _ _ p hp).ne')
          have hm3 : m.2 = totalMobility P press z s c c := m3
          obtain ⟨out, eo, o1, o2⟩ := surfaceVolumes_ok (tot := m.2) m1 (hP.mat (press.getD c 0) _ (c : Int) lz) (by rw [hm3]; exact hm c hc hneg) (-src.getD c 0 * dt)
          obtain ⟨u, eu, u1, u2⟩ := loop_addAt (n := P.np) (s := t2) (f := fun p prod => do
            let v ← rd out p
            addAt prod p v) (fun p => p) (fun p => pos (-src.getD c 0) * outContent P press s z c p * dt) (by
              intro p t hp ht
              rw [rdD (by omega), bind_ok, o2 p hp, hpos]
              congr 1
              unfold outContent
              rw [Finset.mul_sum, Finset.sum_mul]
              refine Finset.sum_congr rfl fun j hj => ?_
              rw [m2 j (Finset.mem_range.1 hj), hm3]
              unfold mobility
              ring) (fun p hp => by omega)
          rw [es, bind_ok, rdD (by omega), bind_ok, ez, bind_ok, em, bind_ok, eo, bind_ok, eu, bind_ok]
          refine ⟨_, rfl, ⟨h1, by simp only; omega⟩, ?_⟩
          rintro ⟨b, r⟩
          cases b
          · exact u2 r
          · simp only [hp0, cond, zero_mul, ite_self, add_zero]
        · rw [if_neg hneg]
          refine ⟨_, rfl, ⟨h1, h2⟩, ?_⟩
          have hpos : pos (-src.getD c 0) = 0 := if_neg (by linarith)
          rintro ⟨b, r⟩
          cases b <;> simp only [hp0, hpos, cond, zero_mul, ite_self, Finset.sum_const_zero, add_zero])
  refine ⟨r.1, r.2, ?_, ?_, ?_, ?_⟩
  · unfold computeInjectedProduced
    rw [if_neg (by omega), if_neg (by omega), ea, bind_ok, eb, bind_ok]
    exact e
  · have := hr (true, 0)
    simp only [cond, if_true] at this
    rw [this, a2 0 h1p, zero_add, Finset.mul_sum]
    exact Finset.sum_congr rfl fun c _ => mul_comm _ _
  · intro p h hp
    have := hr (true, p)
    simp only [cond, if_neg (by omega : ¬ p = 0)] at this
    rw [this, a2 p hp]
    simp
  · intro p hp
    have := hr (false, p)
    simp only [cond] at this
    rw [this, b2 p hp, zero_add, Finset.mul_sum]
    refine Finset.sum_congr rfl fun c _ => ?_
    rw [sum_phase hp]
    ring

/-- Sizes that do not fit are rejected. -/
theorem injected_produced_sizes (P : Props) (press s z src : List Rat) (dt : Rat) (inj prod : List Rat) (h : P.nc ≠ src.length ∨ s.length ≠ src.length * P.np) :
    computeInjectedProduced P press s z src dt inj prod = .error .thrown := by
  unfold computeInjectedProduced
  by_cases h1 : P.nc = src.length
  · rw [if_neg (not_not.2 h1), if_pos (h.resolve_left (not_not.2 h1))]
  · rw [if_pos h1]

/-! ### Transport sources -/

/-- What a perforation contributes: production in full; injection through injectors with the share of the first phase, as surface volume at the pressure of the perforation;
injection through producers is ignored. -/
def perfShare (P : Props) (W : Wells.W) (press : List Rat) (c w i : Nat) (q : Rat) : Rat :=
  if 0 < q then (if W.type[w]? = some .injector then q * W.compFrac.getD (2 * w) 0 * (P.matrix (press.getD i 0) (point 2 W.compFrac w) c).getD 0 0 else 0) else q

private theorem perfSource_ok {P : Props} (hP : P.Ok) (h2 : P.np = 2) {nc : Nat} {W : Wells.W} (hW : Wells2 nc W) {press : List Rat} {w i c : Nat} (hw : w < W.nw) (hi : i < press.length) (q : Rat) :
    perfSource P W press w i (c : Int) q = .ok (perfShare P W press c w i q) := by
  have hl := hW.frac
  have ht := hW.type
  unfold perfSource perfShare
  obtain ⟨ty, ety⟩ : ∃ ty, W.type[w]? = some ty := ⟨_, List.getElem?_eq_getElem (by omega)⟩
  rw [rd_of_getElem? ety, bind_ok, ety]
  by_cases hq : q > 0
  · rw [if_pos hq, if_pos hq]
    cases ty with
    | producer => rfl
    | injector =>
      obtain ⟨es, ls⟩ := sub_ok (l := W.compFrac) (np := 2) (n := W.nw) (i := w) (by omega) hw
      have g0 : (point 2 W.compFrac w).getD 0 0 = W.compFrac.getD (2 * w) 0 := by
        unfold point
        simp only [List.getD_eq_getElem?_getD]
        rw [List.getElem?_take_of_lt (by omega), List.getElem?_drop]
        simp
      have g1 : (point 2 W.compFrac w).getD 1 0 = W.compFrac.getD (2 * w + 1) 0 := by
        unfold point
        simp only [List.getD_eq_getElem?_getD]
        rw [List.getElem?_take_of_lt (by omega), List.getElem?_drop]
      have hmat := hP.mat (press.getD i 0) (point 2 W.compFrac w) (c : Int) (by rw [ls, h2])
      rw [if_neg (by simp), if_pos rfl, hW.np, es, bind_ok, rdD (by omega), bind_ok, rdD (by omega), bind_ok, g0, g1, hW.one w hw ety, check_ok (by decide +kernel), bind_ok,
        rdD hi, bind_ok, rdD (by rw [hmat, h2]; decide), bind_ok]
  · rw [if_neg hq, if_neg hq]

/-- **Transport sources.**  The source of a cell is the sum of the contributions of all perforations in it. -/
theorem transport_source_eq {P : Props} (hP : P.Ok) (h2 : P.np = 2) {W : Wells.W} (hW : Wells2 P.nc W) {press rates : List Rat} (hr : W.connpos.getD W.nw 0 ≤ rates.length)
    (hp : W.connpos.getD W.nw 0 ≤ press.length) :
    ∃ r, computeTransportSource P (some W) press rates = .ok r ∧ r.length = P.nc ∧
      ∀ c, c < P.nc → r.getD c 0 = overPerfs W c (fun w i => perfShare P W press c w i (rates.getD i 0)) := by
  obtain ⟨r, e', h3, h4⟩ := loop_sum (n := W.nw) (s := List.replicate P.nc (0 : Rat)) (f := fun w ts => do
      let b ← rd W.connpos w
      let e ← rd W.connpos (w + 1)
      forRange b e (fun perf ts => do
        let cell ← rd W.cells perf
        let rate ← rd rates perf
        let v ← perfSource P W press w perf cell rate
        let x ← rdI ts cell
        wrI ts cell (x + v)) ts)
    (Ok := fun t : List Rat => t.length = P.nc) (V := fun t r => t.getD r 0)
    (g := fun w c => ∑ i ∈ Finset.Ico (W.connpos.getD w 0) (W.connpos.getD (w + 1) 0), if W.cells[i]? = some (c : Int) then perfShare P W press c w i (rates.getD i 0) else 0) (by simp) (by
      intro w t hw ht
      rw [rd_of_getElem? (hW.pos.get (c := w) (by omega)), bind_ok, rd_of_getElem? (hW.pos.get (c := w + 1) hw), bind_ok]
      exact forRange_sum (hW.pos.le hw) (Ok := fun t : List Rat => t.length = P.nc) (V := fun t r => t.getD r 0)
        (g := fun i c => if W.cells[i]? = some (c : Int) then perfShare P W press c w i (rates.getD i 0) else 0) ht (by
          intro i t hi hi' ht
          have hlt := hW.pos.lt_total hw hi'
          obtain ⟨c, ec, hc⟩ := hW.cell i hlt
          rw [rd_of_getElem? ec, bind_ok, rdD (by omega), bind_ok, perfSource_ok hP h2 hW hw (by omega), bind_ok, rdI_natCast, rdD (by omega), bind_ok, wrI_natCast, wr_ok (by omega)]
          refine ⟨_, rfl, by simpa using ht, fun r => ?_⟩
          rw [getD_addAt (by omega)]
          congr 1
          rw [ec]
          by_cases hrc : r = c
          · subst hrc; simp
          · rw [if_neg hrc, if_neg (by simp; omega)]))
  refine ⟨r, ?_, h3, fun c hc => ?_⟩
  · unfold computeTransportSource
    simp only
    rw [if_neg (by rw [hW.np]; simp)]
    exact e'
  · rw [h4]
    have : (List.replicate P.nc (0 : Rat)).getD c 0 = 0 := by simp [List.getD_eq_getElem?_getD, hc]
    rw [this, zero_add]
    rfl

/-! ### The water balance of a transport step -/

open Opm.CompressibleReorder (Env TransportData cellEquation waterVolume share solve)

/-- The transport solver uses these properties at these pressures and surface volumes. -/
structure Agrees (P : Props) (E : Env) (press z : List Rat) : Prop where
  np : P.np = 2
  nc : P.nc = E.g.nc
  kr : ∀ c < E.g.nc, ∀ s : Rat, P.relperm [s, 1 - s] c = [(E.relperm c s (1 - s)).1, (E.relperm c s (1 - s)).2]
  mu : ∀ c < E.g.nc, P.viscosity (press.getD c 0) (point 2 z c) c = [E.visc.getD (2 * c) 0, E.visc.getD (2 * c + 1) 0]
  mat : ∀ c < E.g.nc, P.matrix (press.getD c 0) (point 2 z c) c = [E.A.getD (4 * c) 0, E.A.getD (4 * c + 1) 0, E.A.getD (4 * c + 2) 0, E.A.getD (4 * c + 3) 0]

private theorem point_two {l : List Rat} {n c : Nat} (hl : l.length = 2 * n) (hc : c < n) (h1 : l.getD (2 * c) 0 + l.getD (2 * c + 1) 0 = 1) :
    point 2 l c = [l.getD (2 * c) 0, 1 - l.getD (2 * c) 0] := by
  have : 1 - l.getD (2 * c) 0 = l.getD (2 * c + 1) 0 := by linarith
  rw [this]
  unfold point
  rw [List.drop_eq_getElem_cons (show 2 * c < l.length by omega), List.drop_eq_getElem_cons (show 2 * c + 1 < l.length by omega)]
  simp only [List.take_succ_cons, List.take_zero, List.getD_eq_getElem?_getD]
  rw [List.getElem?_eq_getElem (by omega), List.getElem?_eq_getElem (by omega)]
  rfl

/-- **The books balance.**  The surface volume of water after an implicit compressible transport step is what was there before, plus the injected and minus the produced
volume that `computeInjectedProduced` reports for the new saturations, up to the residuals of the equations solved. -/
theorem reported_water_balance {P : Props} (hP : P.Ok) {E : Env} {press z : List Rat} (hA : Agrees P E press z) (h : TransportData E) (hno : NoCirculation E.g E.flux)
    (hsrc : E.src.length = E.g.nc) (hpr : E.g.nc ≤ press.length) (hz : E.g.nc * 2 ≤ z.length) {sat ff both : List Rat} (hff : ff.length = E.g.nc) (hl : both.length = 2 * E.g.nc)
    (hb : ∀ c < E.g.nc, 0 ≤ both.getD (2 * c) 0 ∧ both.getD (2 * c) 0 ≤ 1) {fuel : Nat} (hfuel : 2 * E.g.nc + 2 * E.g.nf + 2 ≤ fuel) {inj prod : List Rat} (hi : 2 ≤ inj.length)
    (hp : 2 ≤ prod.length) :
    ∃ both' z' i o, solve fuel E sat ff both = .ok (both', z') ∧ computeInjectedProduced P press both' z E.src E.dt inj prod = .ok (i, o) ∧
      ∑ c ∈ Finset.range E.g.nc, E.pv.getD c 0 * z'.getD (2 * c) 0 = ∑ c ∈ Finset.range E.g.nc, E.pv0.getD c 0 * E.surfvol.getD (2 * c) 0 + i.getD 0 0 - o.getD 0 0 +
        ∑ c ∈ Finset.range E.g.nc, E.pv0.getD c 0 * waterVolume E c * cellEquation E c (fun u => both'.getD (2 * u) 0) (both'.getD (2 * c) 0) := by
  obtain ⟨both', z', ρ, e, hρ, hbal⟩ := CompressibleReorder.water_balance h hno hff hl hb hfuel (sat := sat)
  obtain ⟨b2, z2, e2, l2, -, hs⟩ := CompressibleReorder.transport_solved_upwind h hno hff hl hb hfuel (sat := sat)
  rw [e] at e2
  cases e2
  have hmob : ∀ c < E.g.nc, mobility P press z both' c c 0 = (E.relperm c (both'.getD (2 * c) 0) (1 - both'.getD (2 * c) 0)).1 / E.visc.getD (2 * c) 0 ∧
      mobility P press z both' c c 1 = (E.relperm c (both'.getD (2 * c) 0) (1 - both'.getD (2 * c) 0)).2 / E.visc.getD (2 * c + 1) 0 := by
    intro c hc
    unfold mobility
    rw [hA.np, point_two l2 hc (hs c hc).2.1, hA.kr c hc, hA.mu c hc]
    exact ⟨rfl, rfl⟩
  have htot : ∀ c < E.g.nc, totalMobility P press z both' c c = mobility P press z both' c c 0 + mobility P press z both' c c 1 := by
    intro c hc
    unfold totalMobility
    rw [hA.np, Finset.sum_range_succ, Finset.sum_range_one]
  have hpos : ∀ c < E.g.nc, totalMobility P press z both' c c ≠ 0 := by
    intro c hc
    rw [htot c hc, (hmob c hc).1, (hmob c hc).2]
    obtain ⟨h1, h2, h3⟩ := h.krPos c hc _ (hs c hc).1.1 (hs c hc).1.2
    obtain ⟨m1, m2⟩ := h.muPos c hc
    refine ne_of_gt ?_
    rcases h3 with h3 | h3
    · exact add_pos_of_pos_of_nonneg (div_pos h3 m1) (div_nonneg h2 m2.le)
    · exact add_pos_of_nonneg_of_pos (div_nonneg h1 m1.le) (div_pos h3 m2)
  obtain ⟨i, o, eio, i0, -, o0⟩ := injected_produced_eq hP (by rw [hA.np]; decide) (press := press) (s := both') (z := z) (src := E.src) (inj := inj) (prod := prod)
    (by rw [hA.nc, hsrc]) (by omega) (by rw [hA.np]; omega) (by rw [hA.np]; omega) E.dt (by rw [hA.np]; omega) (by rw [hA.np]; omega)
    (fun c hc _ => hpos c (by omega))
  refine ⟨both', z', i, o, e, eio, ?_⟩
  have e1 : i.getD 0 0 = E.dt * ∑ c ∈ Finset.range E.g.nc, max (E.src.getD c 0) 0 := by
    rw [i0, hsrc]
    congr 1
    refine Finset.sum_congr rfl fun c _ => ?_
    unfold pos
    split_ifs with h'
    · rw [max_eq_left h'.le]
    · rw [max_eq_right (not_lt.1 h')]
  have e2 : o.getD 0 0 = E.dt * ∑ c ∈ Finset.range E.g.nc, max (-E.src.getD c 0) 0 * waterVolume E c * share E c (both'.getD (2 * c) 0) := by
    rw [o0 0 (by rw [hA.np]; decide), hsrc]
    congr 1
    refine Finset.sum_congr rfl fun c hc => ?_
    have hc := Finset.mem_range.1 hc
    have hpe : pos (-E.src.getD c 0) = max (-E.src.getD c 0) 0 := by
      unfold pos
      split_ifs with h'
      · rw [max_eq_left h'.le]
      · rw [max_eq_right (not_lt.1 h')]
    have hcontent : outContent P press both' z c 0 = waterVolume E c * share E c (both'.getD (2 * c) 0) := by
      unfold outContent
      rw [hA.np, Finset.sum_range_succ, Finset.sum_range_one, hA.mat c hc, htot c hc, (hmob c hc).1, (hmob c hc).2]
      have : E.A.getD (4 * c + 2) 0 = 0 := (h.immiscible c hc).2
      simp only [this, List.getD_cons_zero, List.getD_cons_succ, Nat.zero_add, Nat.mul_one, mul_zero, add_zero]
      unfold waterVolume share waterFraction
      ring
    rw [hpe, hcontent]
    ring
  have e3 : ∑ c ∈ Finset.range E.g.nc, E.pv0.getD c 0 * waterVolume E c * ρ c =
      ∑ c ∈ Finset.range E.g.nc, E.pv0.getD c 0 * waterVolume E c * cellEquation E c (fun u => both'.getD (2 * u) 0) (both'.getD (2 * c) 0) :=
    Finset.sum_congr rfl fun c hc => by rw [hρ c (Finset.mem_range.1 hc)]
  rw [hbal, e1, e2, e3]
  ring

/-! ### Non-vacuity -/

/-- The properties of `CompressibleReorder.flood`. -/
def floodProps : Props where
  np := 2
  nc := 3
  relperm y _ := [y.getD 0 0 * y.getD 0 0, y.getD 1 0 * y.getD 1 0]
  viscosity _ _ c := [1, if c = 1 then 3 else 2]
  matrix _ _ c := [if c = 0 then 2 else if c = 1 then 3 / 2 else 1, 0, 0, 1]

theorem floodProps_ok : floodProps.Ok where
  kr _ _ _ := rfl
  mu _ _ _ _ := rfl
  muPos x y c p hp := by
    have hp : p < 2 := hp
    match p, hp with
    | 0, _ => exact one_pos
    | 1, _ =>
      show (0 : Rat) < if c = 1 then 3 else 2
      split_ifs <;> norm_num
  mat _ _ _ _ := rfl

theorem flood_agrees (press z : List Rat) : Agrees floodProps CompressibleReorder.flood press z where
  np := rfl
  nc := rfl
  kr c _ s := rfl
  mu c hc := by
    have hc : c < 3 := hc
    match c, hc with
    | 0, _ => rfl
    | 1, _ => rfl
    | 2, _ => rfl
  mat c hc := by
    have hc : c < 3 := hc
    match c, hc with
    | 0, _ => rfl
    | 1, _ => rfl
    | 2, _ => rfl

/-- Water injected in the first cell and something produced from the last: the report and the solver agree. -/
example : ∃ both' z' i o, solve 100 CompressibleReorder.flood [] [0, 0, 0] [1 / 4, 3 / 4, 0, 1, 1 / 4, 3 / 4] = .ok (both', z') ∧
    computeInjectedProduced floodProps [1, 1, 1] both' [0, 0, 0, 0, 0, 0] [2, 0, -2] (1 / 4) [7, 7] [7, 7] = .ok (i, o) := by
  obtain ⟨b, z, i, o, e1, e2, -⟩ := reported_water_balance floodProps_ok (flood_agrees [1, 1, 1] [0, 0, 0, 0, 0, 0]) CompressibleReorder.flood_data CompressibleReorder.flood_acyclic (by decide)
    (by decide) (by decide) (sat := []) (ff := [0, 0, 0]) (both := [1 / 4, 3 / 4, 0, 1, 1 / 4, 3 / 4]) (by decide) (by decide) (by decide +kernel) (fuel := 100) (by decide)
    (inj := [7, 7]) (prod := [7, 7]) (by decide) (by decide)
  exact ⟨b, z, i, o, e1, e2⟩

/-- Mobilities, total mobility, fractional flows, injected and produced volumes on the same data. -/
example : computePhaseMobilities floodProps [0, 1, 2] [1, 1, 1] [0, 0, 0, 0, 0, 0] [1 / 2, 1 / 2, 0, 1, 1, 0] = .ok [1 / 4, 1 / 8, 0, 1 / 3, 1, 0] := by decide +kernel

example : computeTotalMobility floodProps [0, 1, 2] [1, 1, 1] [0, 0, 0, 0, 0, 0] [1 / 2, 1 / 2, 0, 1, 1, 0] = .ok [3 / 8, 1 / 3, 1] := by decide +kernel

example : computeFractionalFlow floodProps [0, 1, 2] [1, 1, 1] [0, 0, 0, 0, 0, 0] [1 / 2, 1 / 2, 0, 1, 1, 0] = .ok [2 / 3, 1 / 3, 0, 1, 1, 0] := by decide +kernel

example : computePhaseMobilities floodProps [0, 1] [1, 1, 1] [0, 0, 0, 0, 0, 0] [1 / 2, 1 / 2, 0, 1, 1, 0] = .error .ub := by decide +kernel

example : computeInjectedProduced floodProps [1, 1, 1] [1 / 2, 1 / 2, 0, 1, 1, 0] [0, 0, 0, 0, 0, 0] [-3, 1, 2] (1 / 4) [7, 7] [7, 7] = .ok ([3 / 4, 0], [1, 1 / 4]) := by decide +kernel

example : computeTransportSource floodProps (some MiscUtil.Demo.pairWells) [1, 1] [5, -4] = .ok [10, -4, 0] := by decide +kernel

example : Wells2 floodProps.nc MiscUtil.Demo.pairWells where
  np := rfl
  pos := MiscUtil.Demo.pairWells_ok.pos
  cell i hi := by
    obtain ⟨c, h1, h2⟩ := MiscUtil.Demo.pairWells_ok.cell i hi
    exact ⟨c, h1, lt_trans h2 (by decide)⟩
  type := rfl
  frac := rfl
  one := MiscUtil.Demo.pairWells_ok.one

end Opm.MiscBlackoil
