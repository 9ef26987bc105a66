import Verif.Props.Blackoil
import Verif.Props.LiveOil
import Verif.Proofs.Sums
/-!
# Densities, fluids of constant properties, and what does not hold (C90, C91)
-/

namespace Opm.Blackoil
open Opm Opm.Pvt Opm.Rock Opm.UniquePoints

/-! ### Density -/

/-- One density. -/
theorem density_one {np : Nat} {sdens a rho : List Rat} {i ph : Nat} (hs : np ≤ sdens.length) (ha : i * np * np + np * ph + np ≤ a.length) (hk : np * i + ph < rho.length) :
    (do
      let rho ← wr rho (np * i + ph) 0
      loop np (fun comp rho => do
        let r ← rd rho (np * i + ph)
        let x ← rd a (i * np * np + np * ph + comp)
        let s ← rd sdens comp
        wr rho (np * i + ph) (r + x * s)) rho) =
      wr rho (np * i + ph) (∑ comp ∈ Finset.range np, a.getD (i * np * np + np * ph + comp) 0 * sdens.getD comp 0) := by
  rw [wr_ok hk, bind_ok, wr_ok hk]
  obtain ⟨t, e, h⟩ := loop_inv (n := np) (s := rho.set (np * i + ph) 0) (f := fun comp rho => do
        let r ← rd rho (np * i + ph)
        let x ← rd a (i * np * np + np * ph + comp)
        let s ← rd sdens comp
        wr rho (np * i + ph) (r + x * s))
    (fun m t => t = rho.set (np * i + ph) (∑ comp ∈ Finset.range m, a.getD (i * np * np + np * ph + comp) 0 * sdens.getD comp 0)) (by simp) (by
    rintro m t hm rfl
    rw [rd_of_getElem? (List.getElem?_set_self hk), bind_ok, rd_of_getElem? (getElem?_getD (by omega)), bind_ok, rd_of_getElem? (getElem?_getD (by omega)), bind_ok, wr_ok (by simpa using hk)]
    refine ⟨_, rfl, ?_⟩
    rw [List.set_set, Finset.sum_range_succ])
  rw [e, h]

/-- Densities of the phases: the masses of the components in a unit volume of the phase, with the columns of the matrix. -/
theorem density_values {np n : Nat} {sdens a rho : List Rat} (hs : np ≤ sdens.length) (ha : a.length = n * (np * np)) (hr : rho.length = n * np) :
    ∃ rho', density np sdens n a rho = .ok rho' ∧ rho'.length = n * np ∧
      ∀ i ph, i < n → ph < np → rho'[i * np + ph]? = some (∑ comp ∈ Finset.range np, a.getD (i * (np * np) + (ph * np + comp)) 0 * sdens.getD comp 0) := by
  have blk : ∀ i K, i < n → i * K + K ≤ n * K := fun i K hi => by
    have : (i + 1) * K ≤ n * K := Nat.mul_le_mul_right _ hi
    rwa [Nat.add_mul, Nat.one_mul] at this
  obtain ⟨t, e, l, v, _⟩ := loop_blocks (n := n) (s := rho) (f := fun i rho =>
    loop np (fun phase rho => do
      let rho ← wr rho (np * i + phase) 0
      loop np (fun comp rho => do
        let r ← rd rho (np * i + phase)
        let x ← rd a (i * np * np + np * phase + comp)
        let s ← rd sdens comp
        wr rho (np * i + phase) (r + x * s)) rho) rho) 0 np (fun i ph => ∑ comp ∈ Finset.range np, a.getD (i * np * np + np * ph + comp) 0 * sdens.getD comp 0) (by
    intro i t hi lt _
    have h1 := blk i np hi
    have h2 := blk i (np * np) hi
    obtain ⟨u, e, l, v, w⟩ := loop_writes (n := np) (s := t) (f := fun phase rho => do
      let rho ← wr rho (np * i + phase) 0
      loop np (fun comp rho => do
        let r ← rd rho (np * i + phase)
        let x ← rd a (i * np * np + np * phase + comp)
        let s ← rd sdens comp
        wr rho (np * i + phase) (r + x * s)) rho) (fun ph => np * i + ph) (fun ph => ∑ comp ∈ Finset.range np, a.getD (i * np * np + np * ph + comp) 0 * sdens.getD comp 0)
      (fun ph hph => by rw [lt, hr, Nat.mul_comm np]; omega) (fun x y _ _ h => by omega) (fun ph t' hph lt' _ => by
        have h3 : np * ph + np ≤ np * np := by
          have : np * (ph + 1) ≤ np * np := Nat.mul_le_mul_left _ hph
          rwa [Nat.mul_add, Nat.mul_one] at this
        exact density_one hs (by rw [ha, Nat.mul_assoc]; omega) (by rw [lt', lt, hr, Nat.mul_comm np]; omega))
    refine ⟨u, e, by omega, fun j hj => ?_, fun k hk => w k (fun j hj => ?_)⟩
    · have := v j hj
      rw [Nat.mul_comm np i] at this
      rw [Nat.zero_add]
      exact this
    · have := hk j hj
      rw [Nat.zero_add, Nat.mul_comm i] at this
      exact this)
  refine ⟨t, e, by omega, fun i ph hi hph => ?_⟩
  have := v i ph hi hph
  have h1 := blk i np hi
  rw [Nat.zero_add] at this
  rw [getElem?_getD (by omega), this]
  simp only [Nat.mul_assoc, Nat.mul_comm ph, Nat.add_assoc]

/-- Mass is the same counted by phases (reservoir volumes `u`) and by components (surface volumes `A u`). -/
theorem density_mass {np n : Nat} {sdens a rho rho' : List Rat} (hs : np ≤ sdens.length) (ha : a.length = n * (np * np)) (hr : rho.length = n * np) (h : density np sdens n a rho = .ok rho')
    (i : Nat) (hi : i < n) (u : Nat → Rat) :
    ∑ ph ∈ Finset.range np, rho'.getD (i * np + ph) 0 * u ph =
      ∑ comp ∈ Finset.range np, sdens.getD comp 0 * ∑ ph ∈ Finset.range np, a.getD (i * (np * np) + (ph * np + comp)) 0 * u ph := by
  obtain ⟨t, e, l, v⟩ := density_values hs ha hr
  rw [h] at e
  cases e
  have : ∀ ph ∈ Finset.range np, rho'.getD (i * np + ph) 0 * u ph = ∑ comp ∈ Finset.range np, sdens.getD comp 0 * (a.getD (i * (np * np) + (ph * np + comp)) 0 * u ph) := by
    intro ph hph
    rw [List.getD_eq_getElem?_getD, v i ph hi (Finset.mem_range.1 hph), Option.getD_some, Finset.sum_mul]
    exact Finset.sum_congr rfl (fun _ _ => by ring)
  rw [Finset.sum_congr rfl this, Finset.sum_comm]
  exact Finset.sum_congr rfl (fun _ _ => by rw [Finset.mul_sum])

/-- Water, and oil which dissolves gas, at one point: the oil is heavier by the gas in it. -/
example : density 3 [1000, 800, 1] 1 [1, 0, 0, 0, 1 / 2, 50, 0, 0, 100] [0, 0, 0] = .ok [1000, 450, 100] := by decide +kernel

/-! ### Fluids of constant properties -/

theorem constants_ok {np n : Nat} {src out : List Rat} (hs : np ≤ src.length) (ho : out.length = n * np) :
    ∃ t, Basic.constants np n src out = .ok t ∧ t.length = n * np ∧ ∀ i ph, i < n → ph < np → t[i * np + ph]? = src[ph]? := by
  have blk : ∀ i, i < n → np * i + np ≤ n * np := fun i hi => by
    have : (i + 1) * np ≤ n * np := Nat.mul_le_mul_right _ hi
    rwa [Nat.add_mul, Nat.one_mul, Nat.mul_comm i] at this
  obtain ⟨t, e, l, v⟩ := loop_inv (n := np) (s := out) (f := fun phase out =>
    loop n (fun i out => do
      let v ← rd src phase
      wr out (np * i + phase) v) out)
    (fun m (t : List Rat) => t.length = n * np ∧ ∀ i ph, i < n → ph < m → ph < np → t.getD (np * i + ph) 0 = src.getD ph 0) ⟨ho, by simp⟩ (by
    rintro m t hm ⟨l, v⟩
    obtain ⟨u, e, lu, vu, wu⟩ := loop_writes (n := n) (s := t) (f := fun i out => do
      let v ← rd src m
      wr out (np * i + m) v) (fun i => np * i + m) (fun _ => src.getD m 0) (fun i hi => by have := blk i hi; omega) (fun i j _ _ h => by
        have h' : np * i = np * j := by omega
        exact Nat.eq_of_mul_eq_mul_left (by omega) h') (fun i t _ _ _ => by rw [rd_of_getElem? (getElem?_getD (by omega)), bind_ok])
    refine ⟨u, e, by omega, fun i ph hi hph hp => ?_⟩
    rcases Nat.lt_succ_iff_lt_or_eq.1 hph with q | q
    · rw [wu _ (fun j hj h => ?_)]
      · exact v i ph hi q hp
      · have : (np * j + m) % np = (np * i + ph) % np := by rw [h]
        rw [Nat.mul_add_mod, Nat.mul_add_mod, Nat.mod_eq_of_lt hm, Nat.mod_eq_of_lt hp] at this
        omega
    · rw [q]
      exact vu i hi)
  refine ⟨t, e, l, fun i ph hi hph => ?_⟩
  have := blk i hi
  rw [Nat.mul_comm i, getElem?_getD (by omega), v i ph hi hph hph, ← getElem?_getD (by omega)]

/-- Objects with constant properties exist for one to three phases; other numbers of phases are rejected. -/
theorem basic_init (num : Int) (rho visc : List Rat) :
    Basic.init num rho visc = if 1 ≤ num ∧ num ≤ 3 then .ok ⟨rho, visc, List.replicate num.toNat 1⟩ else .error .thrown := by
  unfold Basic.init
  by_cases h : num > 3 ∨ num < 1
  · rw [if_pos h, if_neg (by omega)]
  · rw [if_neg h, if_pos (by omega)]

/-- The same from parameters, whose viscosities are in centipoise. -/
theorem basic_init_parameters (num : Int) (rho mu : Nat → Rat) (b : Basic) : Basic.initParam num rho mu = .ok b ↔
    1 ≤ num ∧ num ≤ 3 ∧ (b.density.length : Int) = num ∧ (b.viscosity.length : Int) = num ∧ b.fvf = List.replicate num.toNat 1 ∧ (∀ k, k < b.density.length → b.density[k]? = some (rho k)) ∧
      ∀ k, k < b.viscosity.length → b.viscosity[k]? = some (mu k / 1000) := by
  unfold Basic.initParam
  by_cases h : num > 3 ∨ num < 1
  · rw [if_pos h]
    constructor
    · intro e; cases e
    · rintro ⟨h1, h2, _⟩; omega
  · rw [if_neg h]
    constructor
    · intro e
      cases e
      refine ⟨by omega, by omega, by simp; omega, by simp; omega, rfl, fun k hk => ?_, fun k hk => ?_⟩ <;> dsimp only at hk ⊢
      · rw [List.length_map, List.length_range] at hk
        rw [List.getElem?_map, List.getElem?_range hk, Option.map_some]
      · rw [List.length_map, List.length_range] at hk
        rw [List.getElem?_map, List.getElem?_range hk, Option.map_some]
        congr 1
        ring
    · rintro ⟨h1, h2, h3, h4, h5, h6, h7⟩
      obtain ⟨d, v, f⟩ := b
      dsimp only at h3 h4 h5 h6 h7
      congr 2
      · refine List.ext_getElem? (fun k => ?_)
        rcases Nat.lt_or_ge k d.length with q | q
        · rw [h6 k q, List.getElem?_map, List.getElem?_range (by omega), Option.map_some]
        · rw [List.getElem?_eq_none q, List.getElem?_eq_none (by simp; omega)]
      · refine List.ext_getElem? (fun k => ?_)
        rcases Nat.lt_or_ge k v.length with q | q
        · rw [h7 k q, List.getElem?_map, List.getElem?_range (by omega), Option.map_some]
          congr 1
          ring
        · rw [List.getElem?_eq_none q, List.getElem?_eq_none (by simp; omega)]
      · exact h5.symm

/-- Viscosities are the given ones and formation volume factors are one, for every point. -/
theorem basic_values {num : Int} {rho visc : List Rat} {b : Basic} (h : Basic.init num rho visc = .ok b) (hr : (rho.length : Int) = num) (hv : visc.length = rho.length) {n : Nat} {out : List Rat}
    (ho : out.length = n * rho.length) :
    (∃ mu, b.mu n out = .ok mu ∧ mu.length = n * rho.length ∧ ∀ i ph, i < n → ph < rho.length → mu[i * rho.length + ph]? = visc[ph]?) ∧
    ∃ B, b.B n out = .ok B ∧ B.length = n * rho.length ∧ ∀ i ph, i < n → ph < rho.length → B[i * rho.length + ph]? = some 1 := by
  rw [basic_init] at h
  split at h
  · cases h
    refine ⟨constants_ok (np := rho.length) (src := visc) (by omega) ho, ?_⟩
    obtain ⟨t, e, l, v⟩ := constants_ok (np := rho.length) (src := List.replicate num.toNat 1) (by simp; omega) ho
    exact ⟨t, e, l, fun i ph hi hph => by rw [v i ph hi hph, List.getElem?_replicate, if_pos (by omega)]⟩
  · cases h

theorem zeros_loop {n K : Nat} {a : List Rat} (ha : a.length = n * K) (f : Nat → List Rat → M (List Rat)) (v : Nat → Rat)
    (hf : ∀ i t, t.length = a.length → i * K + K ≤ t.length → ∃ t', f i t = .ok t' ∧ t'.length = t.length ∧ (∀ j, j < K → t'.getD (i * K + j) 0 = v j) ∧
      ∀ k, (∀ j, j < K → i * K + j ≠ k) → t'.getD k 0 = t.getD k 0) :
    ∃ t, loop n f a = .ok t ∧ t.length = n * K ∧ ∀ i j, i < n → j < K → t[i * K + j]? = some (v j) := by
  have blk : ∀ i, i < n → i * K + K ≤ n * K := fun i hi => by
    have : (i + 1) * K ≤ n * K := Nat.mul_le_mul_right _ hi
    rwa [Nat.add_mul, Nat.one_mul] at this
  obtain ⟨t, e, l, v', _⟩ := loop_blocks (n := n) (s := a) (f := f) 0 K (fun _ j => v j) (by
    intro i t hi lt _
    obtain ⟨t', e, l, v, w⟩ := hf i t lt (by rw [lt, ha]; exact blk i hi)
    refine ⟨t', e, by omega, fun j hj => by rw [Nat.zero_add]; exact v j hj, fun k hk => w k (fun j hj => by have := hk j hj; omega)⟩)
  refine ⟨t, e, by omega, fun i j hi hj => ?_⟩
  have h1 := v' i j hi hj
  have h2 := blk i hi
  rw [Nat.zero_add] at h1
  rw [getElem?_getD (by omega), h1]

/-- The matrix of fluids of constant properties is the identity and its derivative zero.  This needs at most two phases, see below. -/
theorem basic_matrix_partial {num : Int} {rho visc : List Rat} {b : Basic} (h : Basic.init num rho visc = .ok b) (hr : (rho.length : Int) = num) (h2 : num ≤ 2) {n : Nat} {a da : List Rat}
    (ha : a.length = n * (rho.length * rho.length)) (hda : da.length = n * (rho.length * rho.length)) :
    ∃ a' da', b.matrix n a none = .ok (a', none) ∧ b.matrix n a (some da) = .ok (a', some da') ∧ a'.length = a.length ∧ da'.length = da.length ∧ ∀ i row col, i < n → row < rho.length → col < rho.length →
      a'[i * (rho.length * rho.length) + (col * rho.length + row)]? = some (if row = col then 1 else 0) ∧ da'[i * (rho.length * rho.length) + (col * rho.length + row)]? = some 0 := by
  rw [basic_init] at h
  split at h
  case isFalse => cases h
  case isTrue hn =>
  cases h
  have hB : ∃ B, Basic.B ⟨rho, visc, List.replicate num.toNat 1⟩ 1 (List.replicate 2 0) = .ok B ∧ rho.length ≤ B.length ∧ ∀ c, c < rho.length → B.getD c 0 = 1 := by
    have : num = 1 ∨ num = 2 := by omega
    rcases this with e | e
    · have e' : rho.length = 1 := by omega
      refine ⟨[1, 0], ?_, by simp; omega, fun c hc => ?_⟩
      · rw [e]
        unfold Basic.B
        dsimp only
        rw [e']
        decide +kernel
      · obtain rfl : c = 0 := by omega
        rfl
    · have e' : rho.length = 2 := by omega
      refine ⟨[1, 1], ?_, by simp; omega, fun c hc => ?_⟩
      · rw [e]
        unfold Basic.B
        dsimp only
        rw [e']
        decide +kernel
      · rcases (show c = 0 ∨ c = 1 by omega) with rfl | rfl <;> rfl
  obtain ⟨B, eB, lB, vB⟩ := hB
  obtain ⟨a', e1, l1, v1⟩ := zeros_loop (n := n) (K := rho.length * rho.length) ha (fun i a => do
    let a ← zeros (i * rho.length * rho.length) (rho.length * rho.length) a
    diagonal rho.length (i * rho.length * rho.length) B 0 a) (fun j => if j % rho.length = j / rho.length then 1 else 0) (by
    intro i t lt ht
    obtain ⟨s1, g1, m1, w1, x1⟩ := zeros_ok (a := t) ht
    obtain ⟨s2, g2, m2, w2, x2⟩ := diagonal_ok (np := rho.length) (base := i * (rho.length * rho.length)) (B := B) (k := 0) (a := s1) (by omega) (by omega)
      (fun c hc => by rw [Nat.zero_add, vB c hc]; norm_num)
    refine ⟨s2, by rw [Nat.mul_assoc, g1, bind_ok, g2], by omega, fun j hj => ?_, fun k hk => ?_⟩
    · have hnp : 0 < rho.length := by
        rcases Nat.eq_zero_or_pos rho.length with q | q
        · rw [q] at hj; omega
        · exact q
      have hm := Nat.mod_lt j hnp
      have hd : j / rho.length < rho.length := Nat.div_lt_of_lt_mul hj
      by_cases q : j % rho.length = j / rho.length
      · rw [if_pos q]
        have := w2 (j / rho.length) hd
        rw [Nat.zero_add, vB _ hd] at this
        rw [← Nat.div_add_mod' j rho.length, Nat.add_comm (j / rho.length * rho.length), q, this]
        norm_num
      · rw [if_neg q, x2 _ (fun c hc e => q ?_), w1 j hj]
        have e' : c * rho.length + c = j / rho.length * rho.length + j % rho.length := by rw [Nat.div_add_mod']; omega
        obtain ⟨p1, p2⟩ := entry_inj hc hm e'
        omega
    · rw [x2 k (fun c hc e => ?_), x1 k (fun j hj => hk j hj)]
      exact hk (c * rho.length + c) (entry_lt hc hc) (by omega))
  obtain ⟨da', e2, l2, v2⟩ := zeros_loop (n := n) (K := rho.length * rho.length) hda (fun i da => zeros (i * rho.length * rho.length) (rho.length * rho.length) da) (fun _ => 0) (by
    intro i t lt ht
    obtain ⟨s1, g1, m1, w1, x1⟩ := zeros_ok (a := t) ht
    exact ⟨s1, by rw [Nat.mul_assoc]; exact g1, m1, fun j hj => w1 j hj, x1⟩)
  refine ⟨a', da', ?_, ?_, by omega, by omega, fun i row col hi hr hc => ⟨?_, v2 i _ hi (entry_lt hr hc)⟩⟩
  · unfold Basic.matrix
    dsimp only
    rw [check_ok (by simp; omega), bind_ok, eB, bind_ok, e1, bind_ok]
  · unfold Basic.matrix
    dsimp only
    rw [check_ok (by simp; omega), bind_ok, eB, bind_ok, e1, bind_ok, e2, bind_ok]
  · rw [v1 i _ hi (entry_lt hr hc), Nat.mul_comm col, Nat.mul_add_mod, Nat.mod_eq_of_lt hr, Nat.mul_add_div (by omega), Nat.div_eq_of_lt hr, Nat.add_zero]

/-- With three phases, which are accepted, asking for the matrix fails an assertion. -/
theorem basic_matrix_three_phases (rho visc a : List Rat) (n : Nat) (da : Option (List Rat)) (h : rho.length = 3) :
    ∃ b, Basic.init 3 rho visc = .ok b ∧ b.matrix n a da = .error .assertFail := by
  refine ⟨_, rfl, ?_⟩
  unfold Basic.matrix
  dsimp only
  rw [h]
  rfl

/-- Densities given for fewer phases than there are: the number of phases is that of the densities. -/
theorem basic_init_unchecked : ∃ b, Basic.init 3 [1000] [1, 2] = .ok b ∧ b.density.length = 1 := ⟨_, rfl, rfl⟩

example : Basic.initParam 2 (fun _ => 1000) (fun _ => 1) = .ok ⟨[1000, 1000], [1 / 1000, 1 / 1000], [1, 1]⟩ ∧
    (Basic.mk [1000, 800] [1, 5] [1, 1]).mu 2 [0, 0, 0, 0] = .ok [1, 5, 1, 5] ∧
    (Basic.mk [1000, 800] [1, 5] [1, 1]).matrix 1 [9, 9, 9, 9] (some [9, 9, 9, 9]) = .ok ([1, 0, 0, 1], some [0, 0, 0, 0]) := by decide +kernel

/-! ### Incompressible water and oil from a deck -/

/-- Water and oil with DENSITY, PVTW and PVCDO: surface densities, densities at reservoir conditions and viscosities. -/
theorem incomp_values {d : Deck} (hw : d.water = true) (ho : d.oil = true) (hg : d.gas = false) {ro rw : Rat} {rs : List Rat} {rest : List (List Rat)} (hd : d.density = some ((ro :: rw :: rs) :: rest))
    {p1 bw c1 mw v1 : Rat} {ws : List Rat} {wrest : List (List Rat)} (hpw : d.pvtw = some ((p1 :: bw :: c1 :: mw :: v1 :: ws) :: wrest))
    {p2 bo c2 mo v2 : Rat} {os : List Rat} {orest : List (List Rat)} (hpo : d.pvcdo = some ((p2 :: bo :: c2 :: mo :: v2 :: os) :: orest)) (hbw : bw ≠ 0) (hbo : bo ≠ 0) :
    Incomp.init d = .ok ⟨[rw, ro], [rw / bw, ro / bo], [mw, mo]⟩ := by
  have hp : phaseUsage d = .ok ⟨2, [true, true, false], [0, 1, 2]⟩ := (phase_usage d _).2 ⟨ho, by rw [hw]; rfl, by rw [hw, hg]; rfl⟩
  unfold Incomp.init
  rw [hp, bind_ok, if_neg (by rw [hg, hw, ho]; decide), hd]
  have e1 : setDensity ⟨2, [true, true, false], [0, 1, 2]⟩ (ro :: rw :: rs) Aqua 1 (List.replicate 2 0) = .ok [rw, 0] := rfl
  have e2 : setDensity ⟨2, [true, true, false], [0, 1, 2]⟩ (ro :: rw :: rs) Liquid 0 [rw, 0] = .ok [rw, ro] := rfl
  have e3 : Incomp.phase d.pvtw 0 ⟨[rw, ro], [rw, ro], List.replicate 2 0⟩ = .ok ⟨[rw, ro], [rw / bw, ro], [mw, 0]⟩ := by
    rw [hpw]
    show (fdiv rw bw >>= fun y => _) = _
    rw [fdiv_ok hbw]
    rfl
  have e4 : Incomp.phase d.pvcdo 1 ⟨[rw, ro], [rw / bw, ro], [mw, 0]⟩ = .ok ⟨[rw, ro], [rw / bw, ro / bo], [mw, mo]⟩ := by
    rw [hpo]
    show (fdiv ro bo >>= fun y => _) = _
    rw [fdiv_ok hbo]
    rfl
  show (do
      let dens ← setDensity ⟨2, [true, true, false], [0, 1, 2]⟩ (ro :: rw :: rs) Aqua 1 (List.replicate 2 0)
      let dens ← setDensity ⟨2, [true, true, false], [0, 1, 2]⟩ (ro :: rw :: rs) Liquid 0 dens
      let w ← rd [0, 1, 2] Aqua
      let o ← rd [0, 1, 2] Liquid
      let s ← Incomp.phase d.pvtw w ⟨dens, dens, List.replicate 2 0⟩
      Incomp.phase d.pvcdo o s) = _
  rw [e1, bind_ok, e2, bind_ok, show rd [0, 1, 2] Aqua = .ok 0 from rfl, bind_ok, show rd [0, 1, 2] Liquid = .ok 1 from rfl, bind_ok, e3, bind_ok, e4]

/-- Everything but exactly water and oil is rejected, and so are decks without one of the keywords. -/
theorem incomp_rejects {d : Deck} (h : ¬(d.water = true ∧ d.oil = true ∧ d.gas = false) ∨ d.density = none) : Incomp.init d = .error .thrown := by
  by_cases hp : d.water = true ∧ d.oil = true ∧ d.gas = false
  · obtain ⟨hw, ho, hg⟩ := hp
    have hd : d.density = none := h.resolve_left (fun q => q ⟨hw, ho, hg⟩)
    unfold Incomp.init
    rw [(phase_usage d _).2 ⟨ho, by rw [hw]; rfl, rfl⟩, bind_ok, if_neg (by rw [hg, hw, ho]; decide), hd]
  · unfold Incomp.init
    cases hu : phaseUsage d with
    | error e =>
      have : ¬(d.oil = true ∧ (d.water || d.gas) = true) := fun q => by
        rw [(phase_usage d _).2 ⟨q.1, q.2, rfl⟩] at hu
        cases hu
      rw [phase_usage_throws d this] at hu
      cases hu
      rfl
    | ok pu =>
      rw [bind_ok, if_pos]
      cases hw : d.water <;> cases ho : d.oil <;> cases hg : d.gas <;> simp_all

theorem incomp_needs_tables {d : Deck} {s : Incomp} (h : Incomp.init d = .ok s) : d.pvtw ≠ none ∧ d.pvcdo ≠ none := by
  unfold Incomp.init at h
  rw [bind_eq_ok] at h
  obtain ⟨pu, _, h⟩ := h
  split at h
  · cases h
  · cases hd : d.density with
    | none => rw [hd] at h; cases h
    | some ds =>
      rw [hd] at h
      dsimp only at h
      simp only [bind_eq_ok] at h
      obtain ⟨_, _, _, _, _, _, _, _, _, _, s1, e1, e2⟩ := h
      constructor
      · intro q
        rw [q] at e1
        cases e1
      · intro q
        rw [q] at e2
        cases e2

example : Incomp.init ⟨true, true, false, some [[800, 1000, 1]], some [[300, 2, 0, 1 / 2, 0]], none, none, some [[300, 4, 0, 5, 0]], none, none⟩ = .ok ⟨[1000, 800], [500, 200], [1 / 2, 5]⟩ := by decide +kernel

/-! ### Examples of the theorems on all fluids, and what does not hold -/

/-- Sampling is not used by the examples. -/
def noSampling : Sampling := ⟨id, false, false, ⟨false, false, false, false, false, false⟩⟩

/-- Water and oil of constant compressibility. -/
def sampleDeck : Deck := ⟨true, true, false, some [[800, 1000, 1]], some [[300, 1, 1 / 100, 1 / 2, 0]], none, none, some [[300, 2, 1 / 50, 5, 0]], none, none⟩
def sampleProps : Props := ⟨⟨2, [true, true, false], [0, 1, 2]⟩, [some (.const ⟨300, 1, 1 / 100, 1 / 2, 0⟩), some (.const ⟨300, 2, 1 / 50, 5, 0⟩)], [1000, 800, 0]⟩

theorem sample_init : Props.init noSampling 10 sampleDeck 0 = .ok sampleProps := by decide +kernel

theorem sample_usable : sampleProps.Ok := init_usable sample_init (Or.inr (Or.inr rfl))

/-- The hypotheses on derivatives are met by the sample at every pressure and for all volumes. -/
theorem sample_fluids (z : List Rat) (x : Rat) :
    (∀ c f v d, sampleProps.fluid c = some f → oneDB f sampleProps.cfg z x = .ok (v, d) → oneB f sampleProps.cfg z x = .ok v ∧ SlopeAt (oneB f sampleProps.cfg z) x d) ∧
    ∀ c f v d, sampleProps.fluid c = some f → oneDR f sampleProps.cfg z x = .ok (v, d) → oneR f sampleProps.cfg z x = .ok v ∧ SlopeAt (oneR f sampleProps.cfg z) x d := by
  have key : ∀ c f, sampleProps.fluid c = some f → ∃ k, f = .const k := by
    intro c f hf
    rcases c with _ | _ | c
    · exact ⟨_, (Option.some.inj hf).symm⟩
    · exact ⟨_, (Option.some.inj hf).symm⟩
    · cases hf
  refine ⟨fun c f v d hf h => ?_, fun c f v d hf h => ?_⟩ <;> obtain ⟨k, rfl⟩ := key c f hf
  · obtain ⟨b, d', e1, e2, e3⟩ := const_derivative k sampleProps.cfg z x
    rw [h] at e2
    cases e2
    exact ⟨e1, e3⟩
  · have q := (const_reference k sampleProps.cfg z).2.2.2.2
    have := (q x).2
    rw [h] at this
    cases this
    exact ⟨(q x).1, (slope_const 0 x).congr (δ := 1) one_pos (fun t _ => (q _).1)⟩

example : sampleProps.matrixDeriv 1 [300] [1, 1] [0, 0, 0, 0] [0, 0, 0, 0] = .ok ([1, 0, 0, 1 / 2], [1 / 100, 0, 0, 1 / 100]) := by decide +kernel

/-- Live oil and dry gas. -/
def liveDeck : Deck := ⟨false, true, true, some [[800, 1000, 1]], none, none, some [Pvt.sample.map Pvt.encode], none, some [[[100, 300], [1 / 10, 1 / 20], [1, 2]]], none⟩
def liveProps : Props := ⟨⟨2, [false, true, true], [0, 0, 1]⟩, [some (.oil Pvt.sampleLive), some (.dead ⟨.nonuniform ⟨[100, 300], [10, 20], [], []⟩, .nonuniform ⟨[100, 300], [1, 2], [], []⟩⟩)], [800, 1, 0]⟩

theorem live_init : Props.init noSampling 10 liveDeck 0 = .ok liveProps := by decide +kernel

theorem live_usable : liveProps.Ok := init_usable live_init (Or.inl rfl)

/-- Saturated oil at a bubble point, with free gas. -/
example : liveProps.matrix 1 [200] [1, 30] [0, 0, 0, 0] = .ok [1 / 3, 20 / 3, 0, 15] := by decide +kernel

/-- Live oil in a deck without gas is accepted, but the volume of gas is read behind those of the point: for the last point outside of the array, for other points it is the volume of water of the
next point.  The same pressures and volumes give another formation volume factor if another point follows. -/
theorem live_oil_without_gas : ∃ (d : Deck) (b : Props), d.gas = false ∧ Props.init noSampling 10 d 0 = .ok b ∧ b.B 1 [300] [0, 1] [0, 0] = .error .ub ∧
    (∃ i z out, b.props[1]? = some (some i) ∧ i.B b.cfg 1 [300] (z ++ [0]) [0] ≠ i.B b.cfg 1 [300] (z ++ [22]) [0] ∧ z = [(0 : Rat), 1] ∧ i.B b.cfg 1 [300] (z ++ [0]) [0] = .ok out) :=
  ⟨⟨true, true, false, some [[800, 1000, 1]], none, none, some [Pvt.sample.map Pvt.encode], none, none, none⟩,
    ⟨⟨2, [true, true, false], [0, 1, 2]⟩, [some (.const ⟨0, 1, 0, 1 / 2000, 0⟩), some (.oil Pvt.sampleLive)], [1000, 800, 0]⟩, rfl, by decide +kernel, by decide +kernel,
    ⟨.oil Pvt.sampleLive, [0, 1], [6 / 7], rfl, by decide +kernel, rfl, by decide +kernel⟩⟩

end Opm.Blackoil
