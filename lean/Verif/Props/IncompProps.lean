import Verif.Props.Rock
import Verif.Props.BlackoilBasic
import Verif.Props.SatBasic

/-!
# Constant rock, and the properties of incompressible problems

`RockBasic`, `IncompPropertiesBasic` and `IncompPropertiesFromDeck`.
-/

namespace Opm.RockData

open Opm.Blackoil Opm.SatFunc

/-- Constant porosity, and a tensor with the given value on the diagonal and zero elsewhere, in any number of dimensions. -/
theorem basic_rock (dim cells : Nat) (poro perm : Rat) : ∃ r, BasicRock.init dim cells poro perm = .ok r ∧ r.dim = dim ∧ r.poro = List.replicate cells poro ∧ r.perm.length = cells * (dim * dim) ∧
    ∀ c i j, c < cells → i < dim → j < dim → r.perm[c * (dim * dim) + (i + dim * j)]? = some (if i = j then perm else 0) := by
  unfold BasicRock.init
  have dm : ∀ e i, i < dim → (dim * e + i) / dim = e ∧ (dim * e + i) % dim = i := fun e i hi => by
    have hp : 0 < dim := by omega
    exact ⟨by rw [Nat.mul_add_div hp, Nat.div_eq_of_lt hi]; rfl, by rw [Nat.mul_add_mod, Nat.mod_eq_of_lt hi]⟩
  have small : ∀ e i, e < dim → i < dim → dim * e + i < dim * dim := fun e i he hi => by
    have := Nat.mul_le_mul_left dim (Nat.succ_le_of_lt he)
    rw [Nat.mul_succ] at this
    omega
  obtain ⟨t, e, t1, t2, _⟩ := loop_blocks (n := cells) (f := fun i k => loop dim (fun e k => wr k (dim * dim * i + dim * e + e) perm) k) (s := List.replicate (cells * (dim * dim)) 0)
    0 (dim * dim) (fun _ q => if q / dim = q % dim then perm else 0) (by
      intro i t hi ht hz
      have ib : (i + 1) * (dim * dim) ≤ cells * (dim * dim) := Nat.mul_le_mul_right _ hi
      rw [Nat.succ_mul] at ib
      rw [List.length_replicate] at ht
      obtain ⟨u, e, u1, u2, u3⟩ := loop_writes (n := dim) (f := fun e k => wr k (dim * dim * i + dim * e + e) perm) (s := t) (fun e => dim * dim * i + dim * e + e) (fun _ => perm)
        (fun a ha => by have := small a a ha ha; rw [ht, Nat.mul_comm (dim * dim) i]; omega)
        (fun a b ha hb h => by
          have h' : dim * a + a = dim * b + b := by omega
          have := congrArg (· / dim) h'
          rwa [(dm a a ha).1, (dm b b hb).1] at this)
        (fun _ _ _ _ _ => rfl)
      refine ⟨u, e, by rw [u1, ht, List.length_replicate], fun q hq => ?_, fun k hk => u3 k (fun a ha h => hk (dim * a + a) (small a a ha ha) (by rw [← h, Nat.mul_comm (dim * dim) i]; omega))⟩
      have hp : 0 < dim := by by_contra h; have : dim = 0 := by omega
                              subst this; simp at hq
      have hq' := Nat.div_add_mod q dim
      have hm := Nat.mod_lt q hp
      have hd : q / dim < dim := Nat.div_lt_of_lt_mul hq
      split
      · next h =>
        have := u2 (q / dim) hd
        rwa [show dim * dim * i + dim * (q / dim) + q / dim = 0 + (i * (dim * dim) + q) by rw [Nat.mul_comm (dim * dim) i]; omega] at this
      · next h =>
        rw [u3 _ (fun a ha e => h ?_), hz q hq]
        · simp only [List.getD_eq_getElem?_getD, List.getElem?_replicate]
          split <;> rfl
        · have : q = dim * a + a := by rw [Nat.mul_comm (dim * dim) i] at e; omega
          rw [this, (dm a a ha).1, (dm a a ha).2])
  rw [e, bind_ok]
  refine ⟨_, rfl, rfl, rfl, by simpa using t1, fun c i j hc hi hj => ?_⟩
  have w := t2 c (dim * j + i) hc (small j i hj hi)
  rw [(dm j i hi).1, (dm j i hi).2] at w
  have cb : (c + 1) * (dim * dim) ≤ cells * (dim * dim) := Nat.mul_le_mul_right _ hc
  rw [Nat.succ_mul] at cb
  have := small j i hj hi
  have hl : c * (dim * dim) + (i + dim * j) < t.length := by rw [t1, List.length_replicate]; omega
  rw [show 0 + (c * (dim * dim) + (dim * j + i)) = c * (dim * dim) + (i + dim * j) by omega, List.getD_eq_getElem?_getD, List.getElem?_eq_getElem hl] at w
  rw [List.getElem?_eq_getElem hl]
  refine congrArg some (w.trans ?_)
  by_cases h : i = j
  · rw [if_pos h, if_pos h.symm]
  · rw [if_neg h, if_neg (Ne.symm h)]

/-- Properties with given data: accepted for one to three phases with a density each, and returns what was given. -/
theorem incomp_basic {num : Int} (h1 : 1 ≤ num) (h3 : num ≤ 3) (f : KrFun) {rho mu : List Rat} (hr : (rho.length : Int) = num) (hm : mu.length = rho.length) (poro perm : Rat) (dim cells : Nat) :
    ∃ p, IncompBasic.init num f rho mu poro perm dim cells = .ok p ∧ BasicRock.init dim cells poro perm = .ok p.rock ∧ p.pvt.density = rho ∧ p.viscosity = mu ∧ p.sat.num = num.toNat ∧ p.sat.func = f := by
  obtain ⟨r, er, _⟩ := basic_rock dim cells poro perm
  have hi : Basic.init num rho mu = .ok ⟨rho, mu, List.replicate num.toNat 1⟩ := by rw [Blackoil.basic_init, if_pos ⟨h1, h3⟩]
  unfold IncompBasic.init IncompBasic.finish
  rw [er, bind_ok, hi, bind_ok]
  dsimp only
  rw [if_neg (by omega)]
  obtain ⟨⟨v, ev, v1, v2⟩, _⟩ := basic_values hi hr hm (n := 1) (out := List.replicate rho.length 0) (by simp)
  rw [ev, bind_ok]
  refine ⟨_, rfl, rfl, rfl, ?_, rfl, rfl⟩
  apply List.ext_getElem?
  intro k
  dsimp only
  by_cases hk : k < rho.length
  · have := v2 0 k Nat.one_pos hk
    rwa [Nat.zero_mul, Nat.zero_add] at this
  · rw [List.getElem?_eq_none (by omega), List.getElem?_eq_none (by omega)]

/-- The numbers of densities and phases must agree. -/
theorem incomp_basic_rejects {num : Int} (f : KrFun) {rho : List Rat} (hr : num < 1 ∨ 3 < num ∨ (rho.length : Int) ≠ num) (mu : List Rat) (poro perm : Rat) (dim cells : Nat) :
    IncompBasic.init num f rho mu poro perm dim cells = .error .thrown := by
  obtain ⟨r, er, _⟩ := basic_rock dim cells poro perm
  unfold IncompBasic.init IncompBasic.finish
  rw [er, bind_ok, Blackoil.basic_init]
  split
  · rw [bind_ok]
    dsimp only
    rw [if_pos (by omega)]
  · rfl

/-- One millidarcy in square metres: the permeability for which a pressure gradient of one atmosphere (101325 Pa) per centimetre drives a fluid of one centipoise (1/1000 Pa s) by 1/1000 centimetres per second. -/
theorem milliDarcy_eq : milliDarcy * (101325 / (1 / 100)) / (1 / 1000) = 1 / 1000 * (1 / 100) := by decide +kernel

/-- Properties with parameters: accepted for one or two phases and a known name of the relative permeability; densities in the units of the code, viscosities in centipoise and permeability in millidarcies. -/
theorem incomp_parameters (num : Int) (name : String) (rho mu : Nat → Rat) (poro perm : Rat) (dim cells : Nat) (hn : num = 1 ∨ num = 2) (hname : name = "Linear" ∨ name = "Quadratic" ∨ (name = "Constant" ∧ num = 1)) :
    ∃ p, IncompBasic.initParam num name rho mu poro perm dim cells = .ok p ∧ BasicRock.init dim cells poro (perm * (1 / 10 ^ 10 / 101325)) = .ok p.rock ∧ (p.pvt.density.length : Int) = num ∧ (p.viscosity.length : Int) = num ∧
      BasicSat.init num name = .ok p.sat ∧ ∀ k : Nat, (k : Int) < num → p.pvt.density[k]? = some (rho k) ∧ p.viscosity[k]? = some (mu k / 1000) := by
  rw [show (1 / 10 ^ 10 / 101325 : Rat) = milliDarcy by decide +kernel]
  obtain ⟨r, er, _⟩ := basic_rock dim cells poro (perm * milliDarcy)
  obtain ⟨b, eb⟩ : ∃ b, Basic.initParam num rho mu = .ok b := by
    unfold Basic.initParam
    rw [if_neg (by omega)]
    exact ⟨_, rfl⟩
  obtain ⟨s, es⟩ : ∃ s, BasicSat.init num name = .ok s := by
    rcases hname with h | h | ⟨h, h'⟩
    · exact ⟨⟨num.toNat, .linear⟩, (SatFunc.basic_init _ _ _).2 ⟨hn, rfl, Or.inr (Or.inl ⟨h, rfl⟩)⟩⟩
    · exact ⟨⟨num.toNat, .quadratic⟩, (SatFunc.basic_init _ _ _).2 ⟨hn, rfl, Or.inr (Or.inr ⟨h, rfl⟩)⟩⟩
    · exact ⟨⟨num.toNat, .constant⟩, (SatFunc.basic_init _ _ _).2 ⟨hn, rfl, Or.inl ⟨h, h', rfl⟩⟩⟩
  obtain ⟨_, _, b1, b2, b3, b4, b5⟩ := (basic_init_parameters num rho mu b).1 eb
  obtain ⟨_, s1, _⟩ := (SatFunc.basic_init _ _ _).1 es
  have hb : Basic.init num b.density b.viscosity = .ok b := by
    rw [Blackoil.basic_init, if_pos (by omega), ← b3]
  unfold IncompBasic.initParam IncompBasic.finish
  rw [er, bind_ok, eb, bind_ok, es, bind_ok, if_neg (by rw [s1]; omega)]
  obtain ⟨⟨v, ev, v1, v2⟩, _⟩ := basic_values hb b1 (by omega) (n := 1) (out := List.replicate b.density.length 0) (by simp)
  rw [ev, bind_ok]
  refine ⟨_, rfl, rfl, b1, by dsimp only; omega, rfl, fun k hk => ⟨b4 k (by omega), ?_⟩⟩
  have := v2 0 k Nat.one_pos (by omega)
  rw [Nat.zero_mul, Nat.zero_add] at this
  exact this.trans (b5 k (by omega))

/-- Other parameters are rejected; three phases too, although the fluid accepts them. -/
theorem incomp_parameters_reject (num : Int) (name : String) (rho mu : Nat → Rat) (poro perm : Rat) (dim cells : Nat)
    (h : ¬((num = 1 ∨ num = 2) ∧ (name = "Linear" ∨ name = "Quadratic" ∨ (name = "Constant" ∧ num = 1)))) : IncompBasic.initParam num name rho mu poro perm dim cells = .error .thrown := by
  obtain ⟨r, er, _⟩ := basic_rock dim cells poro (perm * milliDarcy)
  unfold IncompBasic.initParam
  rw [er, bind_ok]
  unfold Basic.initParam
  split
  · rfl
  · rw [bind_ok]
    have : BasicSat.init num name = .error .thrown := by
      cases e : BasicSat.init num name with
      | ok s =>
        obtain ⟨a, _, b⟩ := (SatFunc.basic_init _ _ _).1 e
        exact absurd ⟨a, b.elim (fun q => Or.inr (Or.inr ⟨q.1, q.2.1⟩)) (fun q => q.elim (fun q => Or.inl q.1) (fun q => Or.inr (Or.inl q.1)))⟩ h
      | error x =>
        unfold BasicSat.init at e
        repeat' split at e
        all_goals cases e
        all_goals rfl
    rw [this]
    rfl

/-- Properties of a deck are those of its parts: the final comparison of the numbers of phases never fails. -/
theorem incomp_deck (u : Sampling) (rd_ : RockDeck) (d : SatDeck) (rg : RockGrid) (g : SatGrid) (p : IncompDeck) : IncompDeck.init u rd_ d rg g = .ok p ↔
    Rock.init rd_ rg = .ok p.rock ∧ Incomp.init d.phases = .ok p.pvt ∧ SatProps.init .simple (some (u, 200)) d g = .ok p.sat := by
  obtain ⟨r, v, s⟩ := p
  unfold IncompDeck.init
  simp only [bind_eq_ok]
  constructor
  · rintro ⟨r', e1, v', e2, s', e3, h⟩
    split at h
    · cases h
    · cases h; exact ⟨e1, e2, e3⟩
  · rintro ⟨e1, e2, e3⟩
    refine ⟨r, e1, v, e2, s, e3, ?_⟩
    have hp : d.phases.water = true ∧ d.phases.oil = true ∧ d.phases.gas = false := by
      by_contra q
      rw [incomp_rejects (Or.inl q)] at e2
      cases e2
    have hu : s.usage.num = 2 := by
      unfold SatProps.init at e3
      obtain ⟨pu, hpu, h⟩ := bind_eq_ok.1 e3
      obtain ⟨⟨ex, c2f⟩, _, h⟩ := bind_eq_ok.1 h
      dsimp only at h
      obtain ⟨_, _, h⟩ := bind_eq_ok.1 h
      obtain ⟨_, _, h⟩ := bind_eq_ok.1 h
      obtain ⟨_, _, h⟩ := bind_eq_ok.1 h
      obtain ⟨_, _, h⟩ := bind_eq_ok.1 h
      rw [(scaling_keeps h).2.1]
      dsimp only
      rw [((phase_usage _ _).1 hpu).2.2, hp.1, hp.2.2]
      rfl
    rw [if_neg (by omega)]

/-! ### Examples -/

example := basic_rock 3 4 (1 / 4) 100
example := incomp_basic (num := 2) (by decide) (by decide) .linear (rho := [1000, 800]) (mu := [1, 5]) rfl rfl (1 / 4) 100 3 2
example : IncompBasic.init 2 .linear [1000, 800] [1, 5] (1 / 4) 100 2 2 = .ok ⟨⟨2, [1 / 4, 1 / 4], [100, 0, 0, 100, 100, 0, 0, 100]⟩, ⟨[1000, 800], [1, 5], [1, 1]⟩, ⟨2, .linear⟩, [1, 5]⟩ := by decide +kernel
example := incomp_basic_rejects (num := 2) .linear (rho := [1000]) (Or.inr (Or.inr (by decide))) [1, 5] (1 / 4) 100 2 2
example := incomp_parameters 2 "Linear" (fun _ => 1000) (fun _ => 1) 1 100 3 5 (Or.inr rfl) (Or.inl rfl)
example := incomp_parameters_reject 3 "Linear" (fun _ => 1000) (fun _ => 1) 1 100 3 5 (by rintro ⟨h | h, _⟩ <;> cases h)

/-- A deck with water and oil. -/
def incDeck : SatDeck where
  phases := { water := true, oil := true, gas := false, density := some [[800, 1000, 1]], pvtw := some [[1, 1, 0, 1, 0]], pvcdo := some [[1, 2, 0, 5, 0]] }
  swof := some [[[0, 1], [0, 1], [1, 0], [0, 0]]]
set_option maxRecDepth 100000 in
example : (match IncompDeck.init noSampling exRock incDeck exRockGrid { cells := 2, depth := [0, 0] } with | .ok p => p.pvt.viscosity == [1, 5] && p.rock.poro == [1 / 10, 3 / 10] | .error _ => false) = true := by decide +kernel

end Opm.RockData
