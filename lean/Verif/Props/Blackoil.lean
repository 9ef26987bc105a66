import Verif.Proofs.BlackoilMatrix
import Verif.Props.LiveGas
/-!
# Properties of all fluids of a black-oil model (C89, C90, C91)
-/

namespace Opm.Blackoil
open Opm Opm.Pvt Opm.Rock Opm.UniquePoints

/-! ### Initialisation from a deck -/

/-- The phases of a deck: it needs oil and at least one of water and gas; the phases used are numbered in the order water, oil, gas. -/
theorem phase_usage (d : Deck) (pu : PhaseUsage) : phaseUsage d = .ok pu ↔
    d.oil = true ∧ (d.water || d.gas) = true ∧ pu = ⟨d.water.toNat + 1 + d.gas.toNat, [d.water, true, d.gas], [0, d.water.toNat, d.water.toNat + 1]⟩ := by
  obtain ⟨w, o, g, _, _, _, _, _, _, _⟩ := d
  have e : ∀ a b : PhaseUsage, (Except.ok a : M PhaseUsage) = .ok b ↔ b = a := fun a b => ⟨fun h => (Except.ok.inj h).symm, fun h => by rw [h]⟩
  have n : ∀ b : PhaseUsage, (Except.error Err.thrown : M PhaseUsage) = .ok b ↔ False := fun b => by simp
  cases w <;> cases o <;> cases g <;> first
    | (show (Except.error Err.thrown : M PhaseUsage) = .ok pu ↔ _; rw [n]; simp)
    | (show (Except.ok _ : M PhaseUsage) = .ok pu ↔ _; rw [e]; simp)

/-- Every other deck is rejected by an exception. -/
theorem phase_usage_throws (d : Deck) (h : ¬(d.oil = true ∧ (d.water || d.gas) = true)) : phaseUsage d = .error .thrown := by
  obtain ⟨w, o, g, _, _, _, _, _, _, _⟩ := d
  cases w <;> cases o <;> cases g <;> first | rfl | (exfalso; exact h ⟨rfl, rfl⟩)

/-- The densities of the first region of DENSITY, given in the order oil, water, gas. -/
def DensitiesOf (d : Deck) (b : Props) : Prop :=
  ∃ r, (d.density.bind (·[0]?)) = some r ∧ (∀ k, d.water = true → b.usage.pos[Aqua]? = some k → b.densities[k]? = r[1]?) ∧ (∀ k, b.usage.pos[Liquid]? = some k → b.densities[k]? = r[0]?) ∧
    (∀ k, d.gas = true → b.usage.pos[Vapour]? = some k → b.densities[k]? = r[2]?)

theorem setDensity_ok {pu : PhaseUsage} {d dens t : List Rat} {ph ecl k : Nat} {u : Bool} (hu : pu.used[ph]? = some u) (hk : pu.pos[ph]? = some k) (h : setDensity pu d ph ecl dens = .ok t) :
    (u = true → ∃ v, d[ecl]? = some v ∧ k < dens.length ∧ t = dens.set k v) ∧ (u = false → t = dens) := by
  unfold setDensity at h
  rw [rd_of_getElem? hu, bind_ok] at h
  cases u with
  | false => exact ⟨by simp, fun _ => (Except.ok.inj h).symm⟩
  | true =>
    refine ⟨fun _ => ?_, by simp⟩
    rw [if_pos rfl, rd_of_getElem? hk, bind_ok, bind_eq_ok] at h
    obtain ⟨v, hv, h⟩ := h
    exact ⟨v, rd_eq_ok.1 hv, wr_eq_ok.1 h⟩

theorem setFluid_ok {pu : PhaseUsage} {f : M Fluid} {l t : List (Option Fluid)} {ph k : Nat} {u : Bool} (hu : pu.used[ph]? = some u) (hk : pu.pos[ph]? = some k) (h : setFluid pu ph f l = .ok t) :
    (u = true → ∃ v, f = .ok v ∧ k < l.length ∧ t = l.set k (some v)) ∧ (u = false → t = l) := by
  unfold setFluid at h
  rw [rd_of_getElem? hu, bind_ok] at h
  cases u with
  | false => exact ⟨by simp, fun _ => (Except.ok.inj h).symm⟩
  | true =>
    refine ⟨fun _ => ?_, by simp⟩
    rw [if_pos rfl, bind_eq_ok] at h
    obtain ⟨v, hv, h⟩ := h
    rw [rd_of_getElem? hk, bind_ok] at h
    exact ⟨v, hv, wr_eq_ok.1 h⟩

/-- What `init` leaves: the phases of the deck, their surface densities, and for each phase the fluid which belongs to the keywords of the deck. -/
theorem init_ok {s : Sampling} {fuel : Nat} {d : Deck} {samples : Int} {b : Props} (h : Props.init s fuel d samples = .ok b) :
    phaseUsage d = .ok b.usage ∧ DensitiesOf d b ∧ b.props.length = b.usage.num ∧ b.densities.length = 3 ∧
    (∀ k, d.water = true → b.usage.pos[Aqua]? = some k → ∃ f, b.fluid k = some f ∧ waterFluid d = .ok f) ∧
    (∀ k, b.usage.pos[Liquid]? = some k → ∃ f, b.fluid k = some f ∧ oilFluid s fuel samples d = .ok f) ∧
    (∀ k, d.gas = true → b.usage.pos[Vapour]? = some k → ∃ f, b.fluid k = some f ∧ gasFluid s samples d = .ok f) := by
  unfold Props.init at h
  rw [bind_eq_ok] at h
  obtain ⟨pu, hpu, h⟩ := h
  obtain ⟨ho, hwg, e⟩ := (phase_usage d pu).1 hpu
  have u0 : pu.used[Aqua]? = some d.water := by rw [e]; rfl
  have u1 : pu.used[Liquid]? = some true := by rw [e]; rfl
  have u2 : pu.used[Vapour]? = some d.gas := by rw [e]; rfl
  have k0 : pu.pos[Aqua]? = some 0 := by rw [e]; rfl
  have k1 : pu.pos[Liquid]? = some d.water.toNat := by rw [e]; rfl
  have k2 : pu.pos[Vapour]? = some (d.water.toNat + 1) := by rw [e]; rfl
  cases hd : d.density with
  | none => rw [hd] at h; cases h
  | some ds =>
    rw [hd] at h
    dsimp only at h
    simp only [bind_eq_ok] at h
    obtain ⟨r, hr, d1, h1, d2, h2, d3, h3, p1, q1, p2, q2, p3, q3, _, _, h⟩ := h
    cases h
    rw [rd_eq_ok] at hr
    have a1 := setDensity_ok u0 k0 h1
    have a2 := setDensity_ok u2 k2 h2
    obtain ⟨v1, g1, l1, rfl⟩ := (setDensity_ok u1 k1 h3).1 rfl
    have b1 := setFluid_ok u0 k0 q1
    obtain ⟨f2, w2, m2, rfl⟩ := (setFluid_ok u1 k1 q2).1 rfl
    have b3 := setFluid_ok u2 k2 q3
    have hden : DensitiesOf d ⟨pu, p3, d2.set d.water.toNat v1⟩ := by
      refine ⟨r, by rw [hd]; exact hr, fun k hw hk => ?_, fun k hk => ?_, fun k hg hk => ?_⟩ <;> dsimp only at hk ⊢
      · rw [k0] at hk
        cases hk
        obtain ⟨v, gv, lv, rfl⟩ := a1.1 hw
        rw [hw] at l1 ⊢
        rw [gv, List.getElem?_set_ne (by decide)]
        cases hg : d.gas with
        | false => rw [a2.2 hg, List.getElem?_set_self (by simp)]
        | true =>
          obtain ⟨v', gv', lv', rfl⟩ := a2.1 hg
          rw [List.getElem?_set_ne (by omega), List.getElem?_set_self (by simp)]
      · rw [k1] at hk
        cases hk
        rw [g1, List.getElem?_set_self l1]
      · rw [k2] at hk
        cases hk
        obtain ⟨v', gv', lv', rfl⟩ := a2.1 hg
        rw [gv', List.getElem?_set_ne (by omega), List.getElem?_set_self lv']
    have hl1 : d1.length = 3 := by
      cases hw : d.water with
      | false => rw [a1.2 hw]; rfl
      | true => obtain ⟨v, gv, lv, rfl⟩ := a1.1 hw; simp
    have hl2 : d2.length = 3 := by
      cases hg : d.gas with
      | false => rw [a2.2 hg]; exact hl1
      | true => obtain ⟨v, gv, lv, rfl⟩ := a2.1 hg; simpa using hl1
    have hn1 : p1.length = pu.num := by
      cases hw : d.water with
      | false => rw [b1.2 hw]; simp
      | true => obtain ⟨v, gv, lv, rfl⟩ := b1.1 hw; simp
    have hn3 : p3.length = pu.num := by
      cases hg : d.gas with
      | false => rw [b3.2 hg]; simpa using hn1
      | true => obtain ⟨v, gv, lv, rfl⟩ := b3.1 hg; simpa using hn1
    have below : ∀ k, k < d.water.toNat + 1 → p3[k]? = (p1.set d.water.toNat (some f2))[k]? := by
      intro k hk
      cases hg : d.gas with
      | false => rw [b3.2 hg]
      | true =>
        obtain ⟨v, gv, lv, rfl⟩ := b3.1 hg
        rw [List.getElem?_set_ne (by omega)]
    refine ⟨hpu, hden, hn3, by simpa using hl2, fun k hw hk => ?_, fun k hk => ?_, fun k hg hk => ?_⟩ <;> dsimp only [Props.fluid] at hk ⊢
    · rw [k0] at hk
      cases hk
      obtain ⟨v, gv, lv, rfl⟩ := b1.1 hw
      refine ⟨v, ?_, gv⟩
      rw [below 0 (by omega), hw, List.getElem?_set_ne (by decide), List.getElem?_set_self lv]
      rfl
    · rw [k1] at hk
      cases hk
      refine ⟨f2, ?_, w2⟩
      rw [below _ (by omega), List.getElem?_set_self m2]
      rfl
    · rw [k2] at hk
      cases hk
      obtain ⟨v, gv, lv, rfl⟩ := b3.1 hg
      refine ⟨v, ?_, gv⟩
      rw [List.getElem?_set_self lv]
      rfl

theorem newDead_dead {s : Sampling} {samples : Int} {t : List (List (List Rat))} {f : Fluid} (h : newDead s samples t = .ok f) : ∃ D, f = .dead D := by
  unfold newDead at h
  split at h <;> (rw [bind_eq_ok] at h; obtain ⟨D, _, e⟩ := h; exact ⟨D, (Except.ok.inj e).symm⟩)

/-- Objects of a deck with gas, or of one without live oil, are usable: no method reads the surface volumes of a phase which is not there. -/
theorem init_usable {s : Sampling} {fuel : Nat} {d : Deck} {samples : Int} {b : Props} (h : Props.init s fuel d samples = .ok b) (hl : d.gas = true ∨ d.pvdo.isSome = true ∨ d.pvto.isNone = true) : b.Ok := by
  obtain ⟨hpu, _, hlen, hdl, fw, fo, fg⟩ := init_ok h
  obtain ⟨ho, hwg, e⟩ := (phase_usage d _).1 hpu
  have k0 : b.usage.pos[Aqua]? = some 0 := by rw [e]; rfl
  have k1 : b.usage.pos[Liquid]? = some d.water.toNat := by rw [e]; rfl
  have k2 : b.usage.pos[Vapour]? = some (d.water.toNat + 1) := by rw [e]; rfl
  have hn : b.usage.num = d.water.toNat + 1 + d.gas.toNat := by rw [e]
  have rd2 : d.gas = true → ∀ ph k, ph = Liquid ∨ ph = Vapour → b.cfg.phasePos[ph]? = some k → k < b.cfg.numPhases := by
    intro hg ph k hph hk
    change b.usage.pos[ph]? = some k at hk
    change k < b.usage.num
    rw [hn, hg]
    rcases hph with rfl | rfl
    · rw [k1] at hk
      cases hk
      simp
    · rw [k2] at hk
      cases hk
      simp
  refine ⟨⟨d.water, d.gas, e, hwg⟩, hlen, fun c hc => ?_, hdl⟩
  have cases3 : (d.water = true ∧ c = 0) ∨ c = d.water.toNat ∨ (d.gas = true ∧ c = d.water.toNat + 1) := by
    rw [hn] at hc
    cases hw : d.water <;> cases hg : d.gas <;> rw [hw, hg] at hc <;> simp at hc ⊢ <;> omega
  rcases cases3 with ⟨hw, rfl⟩ | rfl | ⟨hg, rfl⟩
  · obtain ⟨f, hf, e1⟩ := fw 0 hw k0
    refine ⟨f, hf, ?_⟩
    unfold waterFluid at e1
    cases hp : d.pvtw with
    | none => rw [hp] at e1; cases e1; trivial
    | some t =>
      rw [hp] at e1
      dsimp only at e1
      rw [bind_eq_ok] at e1
      obtain ⟨c, _, e1⟩ := e1
      cases e1
      trivial
  · obtain ⟨f, hf, e1⟩ := fo _ k1
    refine ⟨f, hf, ?_⟩
    unfold oilFluid at e1
    cases hp : d.pvdo with
    | some t =>
      rw [hp] at e1
      obtain ⟨D, rfl⟩ := newDead_dead e1
      trivial
    | none =>
      cases ht : d.pvto with
      | some t =>
        rw [hp, ht] at e1
        dsimp only at e1
        rw [bind_eq_ok] at e1
        obtain ⟨c, _, e1⟩ := e1
        cases e1
        refine rd2 ?_
        rw [hp, ht] at hl
        simpa using hl
      | none =>
        cases hc : d.pvcdo with
        | none => rw [hp, ht, hc] at e1; cases e1
        | some t =>
          rw [hp, ht, hc] at e1
          dsimp only at e1
          rw [bind_eq_ok] at e1
          obtain ⟨c, _, e1⟩ := e1
          cases e1
          trivial
  · obtain ⟨f, hf, e1⟩ := fg _ hg k2
    refine ⟨f, hf, ?_⟩
    unfold gasFluid at e1
    cases hp : d.pvdg with
    | some t =>
      rw [hp] at e1
      obtain ⟨D, rfl⟩ := newDead_dead e1
      trivial
    | none =>
      cases ht : d.pvtg with
      | some t =>
        rw [hp, ht] at e1
        dsimp only at e1
        rw [bind_eq_ok] at e1
        obtain ⟨c, _, e1⟩ := e1
        cases e1
        exact rd2 hg
      | none => rw [hp, ht] at e1; cases e1

/-! ### Batches of points and phases -/

/-- Viscosities: for each point and phase that of the phase at this point alone; the call fails exactly if one of them does. -/
theorem all_mu {b : Props} (hb : b.Ok) {n : Nat} {p z out out' : List Rat} (hp : p.length = n) (hz : z.length = n * b.usage.num) (ho : out.length = n * b.usage.num) :
    b.mu n p z out = .ok out' ↔ out'.length = n * b.usage.num ∧
      ∀ i x c f, p[i]? = some x → b.fluid c = some f → ∃ v, oneMu f b.cfg (point b.cfg z i) x = .ok v ∧ out'[b.usage.num * i + c]? = some v :=
  each_iff hb hp (fun f d hr => batch_mu f b.cfg n p z _ d hp hz (by simp) hr) ho

/-- Formation volume factors. -/
theorem all_b {b : Props} (hb : b.Ok) {n : Nat} {p z out out' : List Rat} (hp : p.length = n) (hz : z.length = n * b.usage.num) (ho : out.length = n * b.usage.num) :
    b.B n p z out = .ok out' ↔ out'.length = n * b.usage.num ∧
      ∀ i x c f, p[i]? = some x → b.fluid c = some f → ∃ v, oneB f b.cfg (point b.cfg z i) x = .ok v ∧ out'[b.usage.num * i + c]? = some v :=
  each_iff hb hp (fun f d hr => batch_b f b.cfg n p z _ d hp hz (by simp) hr) ho

/-- Solution factors. -/
theorem all_r {b : Props} (hb : b.Ok) {n : Nat} {p z out out' : List Rat} (hp : p.length = n) (hz : z.length = n * b.usage.num) (ho : out.length = n * b.usage.num) :
    b.R n p z out = .ok out' ↔ out'.length = n * b.usage.num ∧
      ∀ i x c f, p[i]? = some x → b.fluid c = some f → ∃ v, oneR f b.cfg (point b.cfg z i) x = .ok v ∧ out'[b.usage.num * i + c]? = some v :=
  each_iff hb hp (fun f d hr => batch_r f b.cfg n p z _ d hp hz (by simp) hr) ho

/-- Formation volume factors and derivatives. -/
theorem all_db {b : Props} (hb : b.Ok) {n : Nat} {p z x y x' y' : List Rat} (hp : p.length = n) (hz : z.length = n * b.usage.num) (hx : x.length = n * b.usage.num) (hy : y.length = n * b.usage.num) :
    b.dBdp n p z (x, y) = .ok (x', y') ↔ x'.length = n * b.usage.num ∧ y'.length = n * b.usage.num ∧
      ∀ i q c f, p[i]? = some q → b.fluid c = some f → ∃ v w, oneDB f b.cfg (point b.cfg z i) q = .ok (v, w) ∧ x'[b.usage.num * i + c]? = some v ∧ y'[b.usage.num * i + c]? = some w :=
  each2_iff hb hp (fun f d e hr => batch_db f b.cfg n p z _ _ d e hp hz (by simp) (by simp) hr) hx hy

/-- Solution factors and derivatives. -/
theorem all_dr {b : Props} (hb : b.Ok) {n : Nat} {p z x y x' y' : List Rat} (hp : p.length = n) (hz : z.length = n * b.usage.num) (hx : x.length = n * b.usage.num) (hy : y.length = n * b.usage.num) :
    b.dRdp n p z (x, y) = .ok (x', y') ↔ x'.length = n * b.usage.num ∧ y'.length = n * b.usage.num ∧
      ∀ i q c f, p[i]? = some q → b.fluid c = some f → ∃ v w, oneDR f b.cfg (point b.cfg z i) q = .ok (v, w) ∧ x'[b.usage.num * i + c]? = some v ∧ y'[b.usage.num * i + c]? = some w :=
  each2_iff hb hp (fun f d e hr => batch_dr f b.cfg n p z _ _ d e hp hz (by simp) (by simp) hr) hx hy

/-- Derivatives of viscosities are never computed: asking for them is an exception. -/
theorem viscosity_derivative_throws (b : Props) (n : Nat) (p z mu : List Rat) : b.viscosity n p z mu true = .error .thrown ∧ b.viscosity n p z mu false = b.mu n p z mu := ⟨rfl, rfl⟩

/-! ### The matrix -/

theorem oilGas_ok {b : Props} (hb : b.Ok) : b.oilGas = .ok (b.hasGas, b.oilPos, b.gasPos) := by
  obtain ⟨w, g, e, _⟩ := hb.usage
  unfold Props.oilGas Props.hasGas Props.oilPos Props.gasPos
  rw [e]
  cases g <;> rfl

theorem oilGas_pos {b : Props} (hb : b.Ok) : b.hasGas = true → b.oilPos < b.usage.num ∧ b.gasPos < b.usage.num ∧ b.oilPos ≠ b.gasPos := by
  obtain ⟨w, g, e, _⟩ := hb.usage
  unfold Props.hasGas Props.oilPos Props.gasPos
  rw [e]
  intro h
  have hg : g = true := h
  subst hg
  cases w <;> decide

theorem fluid_lt {b : Props} (hb : b.Ok) {c : Nat} {f : Fluid} (h : b.fluid c = some f) : c < b.usage.num := by
  have := fluid_rd h
  rw [rd_eq_ok] at this
  rw [← hb.len]
  exact (List.getElem?_eq_some_iff.1 this).1

/-- A matrix can only be computed if no formation volume factor is zero. -/
theorem pointMatrix_nonzero {np : Nat} {og : Bool} {o g : Nat} {B R : List Rat} {i : Nat} {a t : List Rat} (h : pointMatrix np og o g B R i a = .ok t) (c : Nat) (hc : c < np) : B.getD (i * np + c) 0 ≠ 0 := by
  unfold pointMatrix at h
  dsimp only at h
  rw [bind_eq_ok] at h
  obtain ⟨t1, _, h⟩ := h
  rw [bind_eq_ok] at h
  obtain ⟨t2, h, _⟩ := h
  obtain ⟨s1, s2, hs⟩ := loop_passes h c hc
  rw [bind_eq_ok] at hs
  obtain ⟨v, hv, hs⟩ := hs
  rw [bind_eq_ok] at hs
  obtain ⟨q, hq, _⟩ := hs
  rw [rd_eq_ok] at hv
  rw [List.getD_eq_getElem?_getD, hv, Option.getD_some]
  rintro rfl
  cases hq

/-- The loop over points. -/
theorem matrix_loop {np : Nat} {og : Bool} {o g n : Nat} (hog : og = true → o < np ∧ g < np ∧ o ≠ g) {B R a : List Rat} (ha : a.length = n * (np * np)) (hB : B.length = n * np) (hR : R.length = n * np)
    (h0 : ∀ i c, i < n → c < np → B.getD (i * np + c) 0 ≠ 0) :
    ∃ t, loop n (pointMatrix np og o g B R) a = .ok t ∧ t.length = n * (np * np) ∧ ∀ i r c, i < n → r < np → c < np →
      t[i * (np * np) + (c * np + r)]? = some (entry og o g (fun c => B.getD (i * np + c) 0) (fun c => R.getD (i * np + c) 0) r c) := by
  have blk : ∀ i K, i < n → i * K + K ≤ n * K := fun i K hi => by
    have : (i + 1) * K ≤ n * K := Nat.mul_le_mul_right _ hi
    rwa [Nat.add_mul, Nat.one_mul] at this
  obtain ⟨t, e, l, v, _⟩ := loop_blocks (n := n) (s := a) (f := pointMatrix np og o g B R) 0 (np * np)
    (fun i j => entry og o g (fun c => B.getD (i * np + c) 0) (fun c => R.getD (i * np + c) 0) (j % np) (j / np)) (by
    intro i t hi lt _
    obtain ⟨t', e, l, v, u⟩ := pointMatrix_ok (np := np) hog (B := B) (R := R) (i := i) (a := t) (by rw [lt, ha]; exact blk i _ hi) (by rw [hB]; exact blk i _ hi) (by rw [hR]; exact blk i _ hi) (h0 i · hi)
    refine ⟨t', e, by omega, fun j hj => ?_, fun k hk => u k (fun j hj => by have := hk j hj; omega)⟩
    have hnp : 0 < np := by
      rcases Nat.eq_zero_or_pos np with q | q
      · rw [q] at hj; omega
      · exact q
    have h1 := Nat.mod_lt j hnp
    have h2 : j / np < np := Nat.div_lt_of_lt_mul hj
    have := v (j % np) (j / np) h1 h2
    rw [Nat.div_add_mod'] at this
    rw [Nat.zero_add]
    exact this)
  refine ⟨t, e, by omega, fun i r c hi hr hc => ?_⟩
  have hj := entry_lt hr hc
  have hb := blk i (np * np) hi
  rw [getElem?_getD (by omega)]
  have := v i (c * np + r) hi hj
  rw [Nat.zero_add] at this
  rw [this, Nat.mul_comm c np, Nat.mul_add_mod, Nat.mod_eq_of_lt hr, Nat.mul_add_div (by omega), Nat.div_eq_of_lt hr, Nat.add_zero]

/-- `matrix` returns, for every point, the matrix made of the formation volume factors and solution factors of the phases at this point, column by column.  It fails exactly if one of these is
undefined or a formation volume factor is zero. -/
theorem matrix_entries {b : Props} (hb : b.Ok) {n : Nat} {p z a a' : List Rat} (hp : p.length = n) (hz : z.length = n * b.usage.num) (ha : a.length = n * (b.usage.num * b.usage.num)) :
    b.matrix n p z a = .ok a' ↔ a'.length = n * (b.usage.num * b.usage.num) ∧
      ∀ i x, p[i]? = some x → ∃ B R, b.Values (point b.cfg z i) x B R ∧
        ∀ row col, row < b.usage.num → col < b.usage.num → a'[i * (b.usage.num * b.usage.num) + (col * b.usage.num + row)]? = some (entry b.hasGas b.oilPos b.gasPos B R row col) := by
  have hlen : (List.replicate (n * b.usage.num) (0 : Rat)).length = n * b.usage.num := by simp
  constructor
  · intro h
    unfold Props.matrix at h
    dsimp only at h
    rw [bind_eq_ok] at h
    obtain ⟨B, hB, h⟩ := h
    rw [bind_eq_ok] at h
    obtain ⟨R, hR, h⟩ := h
    rw [oilGas_ok hb, bind_ok] at h
    dsimp only at h
    obtain ⟨lB, vB⟩ := (all_b hb hp hz hlen).1 hB
    obtain ⟨lR, vR⟩ := (all_r hb hp hz hlen).1 hR
    have h0 : ∀ i c, i < n → c < b.usage.num → B.getD (i * b.usage.num + c) 0 ≠ 0 := by
      intro i c hi hc
      obtain ⟨s1, s2, hs⟩ := loop_passes h i hi
      exact pointMatrix_nonzero hs c hc
    obtain ⟨t, e, l, v⟩ := matrix_loop (oilGas_pos hb) ha lB lR h0
    rw [e] at h
    cases h
    refine ⟨l, fun i x hx => ⟨fun c => B.getD (i * b.usage.num + c) 0, fun c => R.getD (i * b.usage.num + c) 0, fun c f hf => ?_, fun r c hr hc => ?_⟩⟩
    · have hi := (List.getElem?_eq_some_iff.1 hx).1
      have hc := fluid_lt hb hf
      obtain ⟨v1, e1, w1⟩ := vB i x c f hx hf
      obtain ⟨v2, e2, w2⟩ := vR i x c f hx hf
      rw [Nat.mul_comm] at w1 w2
      refine ⟨?_, h0 i c (by omega) hc, ?_⟩
      · dsimp only
        rw [e1, List.getD_eq_getElem?_getD, w1, Option.getD_some]
      · dsimp only
        rw [e2, List.getD_eq_getElem?_getD, w2, Option.getD_some]
    · have hi := (List.getElem?_eq_some_iff.1 hx).1
      exact v i r c (by omega) hr hc
  · rintro ⟨la, h⟩
    -- the values of all points and phases
    have hval : ∀ i x c f, p[i]? = some x → b.fluid c = some f → (∃ v, oneB f b.cfg (point b.cfg z i) x = .ok v ∧ v ≠ 0) ∧ ∃ v, oneR f b.cfg (point b.cfg z i) x = .ok v := by
      intro i x c f hx hf
      obtain ⟨B, R, hv, _⟩ := h i x hx
      obtain ⟨h1, h2, h3⟩ := hv c f hf
      exact ⟨⟨_, h1, h2⟩, _, h3⟩
    have total : ∀ (one : Fluid → Config → List Rat → Rat → M Rat), (∀ i x c f, p[i]? = some x → b.fluid c = some f → ∃ v, one f b.cfg (point b.cfg z i) x = .ok v) →
        ∃ l : List Rat, l.length = n * b.usage.num ∧ ∀ i x c f, p[i]? = some x → b.fluid c = some f → ∃ v, one f b.cfg (point b.cfg z i) x = .ok v ∧ l[b.usage.num * i + c]? = some v := by
      intro one ho
      refine ⟨(List.range (n * b.usage.num)).map (fun k => match b.fluid (k % b.usage.num) with
        | some f => (match one f b.cfg (point b.cfg z (k / b.usage.num)) (p.getD (k / b.usage.num) 0) with | .ok v => v | .error _ => 0)
        | none => 0), by simp, fun i x c f hx hf => ?_⟩
      obtain ⟨v, hv⟩ := ho i x c f hx hf
      have hi := (List.getElem?_eq_some_iff.1 hx).1
      have hc := fluid_lt hb hf
      have : b.usage.num * i + b.usage.num ≤ n * b.usage.num := by rw [← Nat.mul_succ, Nat.mul_comm n]; exact Nat.mul_le_mul_left _ (by omega)
      refine ⟨v, hv, ?_⟩
      rw [List.getElem?_map, List.getElem?_range (by omega), Option.map_some, Nat.mul_add_mod, Nat.mod_eq_of_lt hc, Nat.mul_add_div (by omega), Nat.div_eq_of_lt hc, Nat.add_zero, hf, List.getD_eq_getElem?_getD, hx]
      dsimp only
      rw [Option.getD_some, hv]
    obtain ⟨B, lB, vB⟩ := total oneB (fun i x c f hx hf => by obtain ⟨⟨v, h1, _⟩, _⟩ := hval i x c f hx hf; exact ⟨v, h1⟩)
    obtain ⟨R, lR, vR⟩ := total oneR (fun i x c f hx hf => (hval i x c f hx hf).2)
    have hB := (all_b hb hp hz hlen).2 ⟨lB, vB⟩
    have hR := (all_r hb hp hz hlen).2 ⟨lR, vR⟩
    have h0 : ∀ i c, i < n → c < b.usage.num → B.getD (i * b.usage.num + c) 0 ≠ 0 := by
      intro i c hi hc
      obtain ⟨f, hf, _⟩ := hb.fluids c hc
      have hx := List.getElem?_eq_getElem (l := p) (i := i) (by omega)
      obtain ⟨⟨v, h1, h2⟩, _⟩ := hval i _ c f hx hf
      obtain ⟨v', h3, h4⟩ := vB i _ c f hx hf
      rw [h1] at h3
      cases h3
      rw [Nat.mul_comm, List.getD_eq_getElem?_getD, h4, Option.getD_some]
      exact h2
    obtain ⟨t, e, l, v⟩ := matrix_loop (oilGas_pos hb) ha lB lR h0
    unfold Props.matrix
    dsimp only
    rw [hB, bind_ok, hR, bind_ok, oilGas_ok hb, bind_ok]
    dsimp only
    rw [e]
    congr 1
    refine List.ext_getElem? (fun k => ?_)
    rcases Nat.lt_or_ge k (n * (b.usage.num * b.usage.num)) with hk | hk
    · have hK : 0 < b.usage.num * b.usage.num := by
        rcases Nat.eq_zero_or_pos (b.usage.num * b.usage.num) with q | q
        · rw [q] at hk; omega
        · exact q
      have hnp : 0 < b.usage.num := by
        rcases Nat.eq_zero_or_pos b.usage.num with q | q
        · rw [q] at hK; omega
        · exact q
      have hi : k / (b.usage.num * b.usage.num) < n := Nat.div_lt_of_lt_mul (by rw [Nat.mul_comm]; exact hk)
      have hm := Nat.mod_lt k hK
      have hc : k % (b.usage.num * b.usage.num) / b.usage.num < b.usage.num := Nat.div_lt_of_lt_mul hm
      have hr := Nat.mod_lt (k % (b.usage.num * b.usage.num)) hnp
      have hx := List.getElem?_eq_getElem (l := p) (i := k / (b.usage.num * b.usage.num)) (by omega)
      obtain ⟨B', R', hv, h2⟩ := h _ _ hx
      have e1 := v _ _ _ hi hr hc
      have e2 := h2 _ _ hr hc
      rw [Nat.div_add_mod', Nat.div_add_mod'] at e1 e2
      rw [e1, e2]
      have hB' : ∀ c, c < b.usage.num → B.getD (k / (b.usage.num * b.usage.num) * b.usage.num + c) 0 = B' c ∧ R.getD (k / (b.usage.num * b.usage.num) * b.usage.num + c) 0 = R' c := by
        intro c hc
        obtain ⟨f, hf, _⟩ := hb.fluids c hc
        obtain ⟨x1, _, x2⟩ := hv c f hf
        obtain ⟨v1, y1, y2⟩ := vB _ _ c f hx hf
        obtain ⟨v2, z1, z2⟩ := vR _ _ c f hx hf
        rw [x1] at y1
        cases y1
        rw [x2] at z1
        cases z1
        rw [Nat.mul_comm, List.getD_eq_getElem?_getD, y2, Option.getD_some, List.getD_eq_getElem?_getD, z2, Option.getD_some]
        exact ⟨rfl, rfl⟩
      unfold entry
      dsimp only
      rw [(hB' _ hc).1, (hB' _ hc).2]
    · rw [List.getElem?_eq_none (by omega), List.getElem?_eq_none (by omega)]

theorem point_zero {b : Props} {z : List Rat} (hz : z.length = b.usage.num) : point b.cfg z 0 = z := by
  unfold point
  rw [Nat.mul_zero, List.drop_zero]
  exact List.take_of_length_le (by rw [hz]; exact Nat.le_refl _)

/-- One entry for one point. -/
theorem oneA_ok {b : Props} (hb : b.Ok) {z : List Rat} (hz : z.length = b.usage.num) {y : Rat} {B R : Nat → Rat} (h : b.Values z y B R) {row col : Nat} (hr : row < b.usage.num) (hc : col < b.usage.num) :
    b.oneA z row col y = .ok (entry b.hasGas b.oilPos b.gasPos B R row col) := by
  have key := (matrix_entries hb (n := 1) (p := [y]) (z := z) (a := List.replicate (b.usage.num * b.usage.num) 0)
    (a' := (List.range (b.usage.num * b.usage.num)).map (fun j => entry b.hasGas b.oilPos b.gasPos B R (j % b.usage.num) (j / b.usage.num))) rfl (by omega) (by simp)).2 ⟨by simp, fun i x hx => ?_⟩
  · unfold Props.oneA
    rw [key, bind_ok, rd_of_getElem?]
    rw [List.getElem?_map, List.getElem?_range (entry_lt hr hc), Option.map_some, Nat.mul_comm col, Nat.mul_add_mod, Nat.mod_eq_of_lt hr, Nat.mul_add_div (by omega), Nat.div_eq_of_lt hr, Nat.add_zero]
  · obtain ⟨hi, rfl⟩ := List.getElem?_eq_some_iff.1 hx
    obtain rfl : i = 0 := by simpa using hi
    refine ⟨B, R, by rw [point_zero hz]; exact h, fun row col hr hc => ?_⟩
    rw [Nat.zero_mul, Nat.zero_add, List.getElem?_map, List.getElem?_range (entry_lt hr hc), Option.map_some, Nat.mul_comm col, Nat.mul_add_mod, Nat.mod_eq_of_lt hr, Nat.mul_add_div (by omega), Nat.div_eq_of_lt hr,
      Nat.add_zero]

/-- Finitely many neighbourhoods have a common one. -/
theorem common_delta {P : Nat → Rat → Prop} (n : Nat) (h : ∀ c, c < n → ∃ δ : Rat, 0 < δ ∧ ∀ t, |t| < δ → P c t) : ∃ δ : Rat, 0 < δ ∧ ∀ c, c < n → ∀ t, |t| < δ → P c t := by
  induction n with
  | zero => exact ⟨1, by norm_num, by intro c hc; omega⟩
  | succ n ih =>
    obtain ⟨δ, h1, h2⟩ := ih (fun c hc => h c (by omega))
    obtain ⟨δ', h3, h4⟩ := h n (by omega)
    refine ⟨min δ δ', lt_min h1 h3, fun c hc t ht => ?_⟩
    obtain ⟨t1, t2⟩ := lt_min_iff.1 ht
    rcases Nat.lt_succ_iff_lt_or_eq.1 hc with q | q
    · exact h2 c q t t1
    · rw [q]
      exact h4 t t2

/-- The slope of an entry of the matrix of one point, if the formation volume factors and solution factors have slopes. -/
theorem oneA_slope {b : Props} (hb : b.Ok) {z : List Rat} (hz : z.length = b.usage.num) {x : Rat} {B R dB dR : Nat → Rat} (hv : b.Values z x B R)
    (hB : ∀ c f, b.fluid c = some f → SlopeAt (oneB f b.cfg z) x (dB c)) (hR : ∀ c f, b.fluid c = some f → SlopeAt (oneR f b.cfg z) x (dR c)) {row col : Nat} (hr : row < b.usage.num) (hc : col < b.usage.num) :
    SlopeAt (b.oneA z row col) x ((entry b.hasGas b.oilPos b.gasPos B R row col * -dB col + dPart b.hasGas b.oilPos b.gasPos dR row col) / B col) := by
  -- all values are defined nearby
  obtain ⟨δ, hδ, near⟩ := common_delta (P := fun c t => ∀ f, b.fluid c = some f → ∃ v w, oneB f b.cfg z (x + t) = .ok v ∧ v ≠ 0 ∧ oneR f b.cfg z (x + t) = .ok w) b.usage.num (by
    intro c hc
    obtain ⟨f, hf, _⟩ := hb.fluids c hc
    obtain ⟨b1, b2, b3⟩ := hv c f hf
    obtain ⟨δ1, p1, q1⟩ := (hB c f hf).near b1 (show 0 < |B c| from abs_pos.2 b2)
    obtain ⟨δ2, p2, q2⟩ := (hR c f hf).near b3 one_pos
    refine ⟨min δ1 δ2, lt_min p1 p2, fun t ht f' hf' => ?_⟩
    rw [hf] at hf'
    cases hf'
    obtain ⟨t1, t2⟩ := lt_min_iff.1 ht
    obtain ⟨v, e1, e2⟩ := q1 t t1
    obtain ⟨w, e3, _⟩ := q2 t t2
    refine ⟨v, w, e1, ?_, e3⟩
    rintro rfl
    rw [zero_sub, abs_neg] at e2
    exact absurd e2 (lt_irrefl _))
  obtain ⟨f, hf, _⟩ := hb.fluids col hc
  obtain ⟨b1, b2, b3⟩ := hv col f hf
  have vals : ∀ t, |t| < δ → ∃ B' R', b.Values z (x + t) B' R' := by
    intro t ht
    refine ⟨fun c => match b.fluid c with | some f => (match oneB f b.cfg z (x + t) with | .ok v => v | .error _ => 0) | none => 0,
      fun c => match b.fluid c with | some f => (match oneR f b.cfg z (x + t) with | .ok v => v | .error _ => 0) | none => 0, fun c f hf => ?_⟩
    obtain ⟨v, w, e1, e2, e3⟩ := near c (fluid_lt hb hf) t ht f hf
    simp only [hf, e1, e3]
    exact ⟨trivial, e2, trivial⟩
  by_cases h1 : row = col
  · subst h1
    have s1 := (hB row f hf).recip b1 b2
    have e : -(1 / B row) * (1 / B row) * dB row = (entry b.hasGas b.oilPos b.gasPos B R row row * -dB row + dPart b.hasGas b.oilPos b.gasPos dR row row) / B row := by
      have : dPart b.hasGas b.oilPos b.gasPos dR row row = 0 := by
        unfold dPart
        rw [if_neg]
        rintro ⟨hg, h⟩
        have := (oilGas_pos hb hg).2.2
        omega
      rw [this]
      unfold entry
      rw [if_pos rfl]
      ring
    rw [e] at s1
    refine s1.congr hδ (fun t ht => ?_)
    obtain ⟨B', R', hv'⟩ := vals t ht
    obtain ⟨c1, c2, c3⟩ := hv' row f hf
    rw [oneA_ok hb hz hv' hr hc]
    show _ = (oneB f b.cfg z (x + t) >>= fdiv 1)
    rw [c1, bind_ok, fdiv_ok c2]
    unfold entry
    rw [if_pos rfl]
  · by_cases h2 : b.hasGas = true ∧ ((row = b.oilPos ∧ col = b.gasPos) ∨ (row = b.gasPos ∧ col = b.oilPos))
    · have s1 := (hR col f hf).quot (hB col f hf) b3 b1 b2
      have e : (dR col - R col / B col * dB col) / B col = (entry b.hasGas b.oilPos b.gasPos B R row col * -dB col + dPart b.hasGas b.oilPos b.gasPos dR row col) / B col := by
        unfold entry dPart
        rw [if_neg h1, if_pos h2, if_pos h2]
        ring
      rw [e] at s1
      refine s1.congr hδ (fun t ht => ?_)
      obtain ⟨B', R', hv'⟩ := vals t ht
      obtain ⟨c1, c2, c3⟩ := hv' col f hf
      rw [oneA_ok hb hz hv' hr hc]
      show _ = (oneR f b.cfg z (x + t) >>= fun a => oneB f b.cfg z (x + t) >>= fun b => fdiv a b)
      rw [c3, bind_ok, c1, bind_ok, fdiv_ok c2]
      unfold entry
      rw [if_neg h1, if_pos h2]
    · have e : (0 : Rat) = (entry b.hasGas b.oilPos b.gasPos B R row col * -dB col + dPart b.hasGas b.oilPos b.gasPos dR row col) / B col := by
        unfold entry dPart
        rw [if_neg h1, if_neg h2, if_neg h2]
        simp
      rw [← e]
      refine (slope_const 0 x).congr hδ (fun t ht => ?_)
      obtain ⟨B', R', hv'⟩ := vals t ht
      rw [oneA_ok hb hz hv' hr hc]
      unfold entry
      rw [if_neg h1, if_neg h2]

theorem copyTo_ok {k : Nat} {src dst : List Rat} (hs : src.length = k) (hd : dst.length = k) : copyTo k src dst = .ok src := by
  obtain ⟨t, e, l, v, _⟩ := loop_writes (n := k) (s := dst) (f := fun j d => do
      let v ← rd src j
      wr d j v) (fun j => j) (fun j => src.getD j 0) (fun i hi => by omega) (fun _ _ _ _ h => h) (fun i t hi _ _ => by rw [rd_of_getElem? (getElem?_getD (by omega)), bind_ok])
  show loop k _ dst = _
  rw [e]
  congr 1
  refine List.ext_getElem? (fun j => ?_)
  rcases Nat.lt_or_ge j k with hj | hj
  · rw [getElem?_getD (by omega), v j hj, ← getElem?_getD (by omega)]
  · rw [List.getElem?_eq_none (by omega), List.getElem?_eq_none (by omega)]

/-- The derivatives returned by `matrix` are the slopes of its entries, wherever the derivatives of the formation volume factors and solution factors of the phases are slopes; the matrix is the one
returned without derivatives. -/
theorem matrix_derivative {b : Props} (hb : b.Ok) {n : Nat} {p z a da a' da' : List Rat} (hp : p.length = n) (hz : z.length = n * b.usage.num) (ha : a.length = n * (b.usage.num * b.usage.num))
    (hda : da.length = n * (b.usage.num * b.usage.num)) (h : b.matrixDeriv n p z a da = .ok (a', da')) (i : Nat) (x : Rat) (hx : p[i]? = some x)
    (hB : ∀ c f v d, b.fluid c = some f → oneDB f b.cfg (point b.cfg z i) x = .ok (v, d) → oneB f b.cfg (point b.cfg z i) x = .ok v ∧ SlopeAt (oneB f b.cfg (point b.cfg z i)) x d)
    (hR : ∀ c f v d, b.fluid c = some f → oneDR f b.cfg (point b.cfg z i) x = .ok (v, d) → oneR f b.cfg (point b.cfg z i) x = .ok v ∧ SlopeAt (oneR f b.cfg (point b.cfg z i)) x d)
    (row col : Nat) (hr : row < b.usage.num) (hc : col < b.usage.num) :
    ∃ v d, a'[i * (b.usage.num * b.usage.num) + (col * b.usage.num + row)]? = some v ∧ da'[i * (b.usage.num * b.usage.num) + (col * b.usage.num + row)]? = some d ∧
      b.oneA (point b.cfg z i) row col x = .ok v ∧ SlopeAt (b.oneA (point b.cfg z i) row col) x d := by
  have hlen : (List.replicate (n * b.usage.num) (0 : Rat)).length = n * b.usage.num := by simp
  have hi : i < n := by have := (List.getElem?_eq_some_iff.1 hx).1; omega
  unfold Props.matrixDeriv at h
  dsimp only at h
  rw [bind_eq_ok] at h
  obtain ⟨⟨B, dB⟩, e1, h⟩ := h
  dsimp only at h
  rw [bind_eq_ok] at h
  obtain ⟨⟨R, dR⟩, e2, h⟩ := h
  dsimp only at h
  rw [oilGas_ok hb, bind_ok] at h
  dsimp only at h
  obtain ⟨lB, ldB, vB⟩ := (all_db hb hp hz hlen hlen).1 e1
  obtain ⟨lR, ldR, vR⟩ := (all_dr hb hp hz hlen hlen).1 e2
  rw [bind_eq_ok] at h
  obtain ⟨a1, e3, h⟩ := h
  have h0 : ∀ i c, i < n → c < b.usage.num → B.getD (i * b.usage.num + c) 0 ≠ 0 := by
    intro i c hi hc
    obtain ⟨s1, s2, hs⟩ := loop_passes e3 i hi
    exact pointMatrix_nonzero hs c hc
  obtain ⟨t, e, l, v⟩ := matrix_loop (oilGas_pos hb) ha lB lR h0
  rw [e] at e3
  have e5 := Except.ok.inj e3
  subst e5
  rw [copyTo_ok (by rw [l, Nat.mul_assoc]) (by rw [hda, Nat.mul_assoc]), bind_ok] at h
  have blk : ∀ i K, i < n → i * K + K ≤ n * K := fun i K hi => by
    have : (i + 1) * K ≤ n * K := Nat.mul_le_mul_right _ hi
    rwa [Nat.add_mul, Nat.one_mul] at this
  obtain ⟨u, e4, l4, v4, _⟩ := loop_blocks (n := n) (s := t) (f := pointDeriv b.usage.num b.hasGas b.oilPos b.gasPos B dB dR) 0 (b.usage.num * b.usage.num)
    (fun i j => (t.getD (i * (b.usage.num * b.usage.num) + j) 0 * -dB.getD (i * b.usage.num + j / b.usage.num) 0 +
      dPart b.hasGas b.oilPos b.gasPos (fun c => dR.getD (i * b.usage.num + c) 0) (j % b.usage.num) (j / b.usage.num)) / B.getD (i * b.usage.num + j / b.usage.num) 0) (by
    intro i s hi ls hs
    obtain ⟨t', e, l', v, u⟩ := pointDeriv_ok (np := b.usage.num) (oilGas_pos hb) (B := B) (dB := dB) (dR := dR) (i := i) (a := s) (by rw [ls, l]; exact blk i _ hi) (by rw [lB]; exact blk i _ hi)
      (by rw [ldB]; exact blk i _ hi) (by rw [ldR]; exact blk i _ hi) (h0 i · hi)
    refine ⟨t', e, by omega, fun j hj => ?_, fun k hk => u k (fun j hj => by have := hk j hj; omega)⟩
    have hnp : 0 < b.usage.num := by omega
    have h1 := Nat.mod_lt j hnp
    have h2 : j / b.usage.num < b.usage.num := Nat.div_lt_of_lt_mul hj
    have := v (j % b.usage.num) (j / b.usage.num) h1 h2
    rw [Nat.div_add_mod'] at this
    have q := hs j hj
    rw [Nat.zero_add] at q
    rw [Nat.zero_add, this, q])
  rw [e4, bind_ok] at h
  cases h
  have hj := entry_lt hr hc
  have hbk := blk i (b.usage.num * b.usage.num) hi
  have d1 := v4 i (col * b.usage.num + row) hi hj
  rw [Nat.zero_add, Nat.mul_comm col, Nat.mul_add_mod, Nat.mod_eq_of_lt hr, Nat.mul_add_div (by omega), Nat.div_eq_of_lt hr, Nat.add_zero, Nat.mul_comm _ col] at d1
  have a1 := v i row col hi hr hc
  have hzl : (point b.cfg z i).length = b.usage.num := by
    unfold point
    rw [List.length_take, List.length_drop, hz]
    show min b.usage.num (n * b.usage.num - b.usage.num * i) = _
    have := blk i b.usage.num hi
    rw [Nat.mul_comm b.usage.num i]
    omega
  have vals : b.Values (point b.cfg z i) x (fun c => B.getD (i * b.usage.num + c) 0) (fun c => R.getD (i * b.usage.num + c) 0) ∧
      (∀ c f, b.fluid c = some f → SlopeAt (oneB f b.cfg (point b.cfg z i)) x (dB.getD (i * b.usage.num + c) 0)) ∧
      ∀ c f, b.fluid c = some f → SlopeAt (oneR f b.cfg (point b.cfg z i)) x (dR.getD (i * b.usage.num + c) 0) := by
    refine ⟨fun c f hf => ?_, fun c f hf => ?_, fun c f hf => ?_⟩
    · obtain ⟨v1, w1, f1, f2, f3⟩ := vB i x c f hx hf
      obtain ⟨v2, w2, g1, g2, g3⟩ := vR i x c f hx hf
      rw [Nat.mul_comm] at f2 g2
      dsimp only
      refine ⟨?_, h0 i c hi (fluid_lt hb hf), ?_⟩
      · rw [List.getD_eq_getElem?_getD, f2, Option.getD_some]
        exact (hB c f v1 w1 hf f1).1
      · rw [List.getD_eq_getElem?_getD, g2, Option.getD_some]
        exact (hR c f v2 w2 hf g1).1
    · obtain ⟨v1, w1, f1, f2, f3⟩ := vB i x c f hx hf
      rw [Nat.mul_comm] at f3
      rw [List.getD_eq_getElem?_getD, f3, Option.getD_some]
      exact (hB c f v1 w1 hf f1).2
    · obtain ⟨v1, w1, f1, f2, f3⟩ := vR i x c f hx hf
      rw [Nat.mul_comm] at f3
      rw [List.getD_eq_getElem?_getD, f3, Option.getD_some]
      exact (hR c f v1 w1 hf f1).2
  refine ⟨_, _, a1, getElem?_getD (by omega), oneA_ok hb hzl vals.1 hr hc, ?_⟩
  rw [d1, List.getD_eq_getElem?_getD, a1, Option.getD_some]
  exact oneA_slope hb hzl vals.1 vals.2.1 vals.2.2 hr hc

end Opm.Blackoil
