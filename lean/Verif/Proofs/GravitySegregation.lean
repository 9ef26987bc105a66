import Verif.Model.GravitySegregation
import Verif.Spec.GravitySegregation
import Verif.Props.RootFinders
import Verif.Proofs.Tof
import Mathlib.Tactic.FieldSimp
/-!
# Gravity segregation: one cell
-/

namespace Opm.GravitySegregation
open Opm Opm.TwophaseReorder

/-- The mobilities of the fluid. -/
def mobs (E : Env) (c : Nat) (s : Rat) : Rat × Rat := mobility E.fluid s c

def lo (E : Env) (c : Nat) : Rat := E.smin.getD (2 * c) 0
def hi (E : Env) (c : Nat) : Rat := E.smax.getD (2 * c) 0

structure EnvOk (E : Env) : Prop where
  valid : E.g.Valid
  lenPv : E.g.nc ≤ E.pv.length
  pvPos : ∀ c < E.g.nc, 0 < E.pv.getD c 0
  lenGrav : E.gravflux.length = E.g.nf
  lenMin : E.smin.length = 2 * E.g.nc
  lenMax : E.smax.length = 2 * E.g.nc
  dtPos : 0 ≤ E.dt
  tolPos : 0 ≤ E.tol
  proper : ProperMobilities E.g.nc (mobs E) (lo E) (hi E)

structure Fits (E : Env) (s : State) : Prop where
  sat : s.sat.length = E.g.nc
  mob : s.mob.length = 2 * E.g.nc
  iters : s.iters.length = E.g.nc

/-- A cell whose stored mobilities are those of its saturation. -/
structure Good (E : Env) (s : State) (c : Nat) : Prop where
  lower : lo E c ≤ s.sat.getD c 0
  upper : s.sat.getD c 0 ≤ hi E c
  water : s.mob.getD (2 * c) 0 = (mobs E c (s.sat.getD c 0)).1
  oil : s.mob.getD (2 * c + 1) 0 = (mobs E c (s.sat.getD c 0)).2

/-- Cell `d` is the same in both states. -/
structure SameAt (s t : State) (d : Nat) : Prop where
  sat : t.sat.getD d 0 = s.sat.getD d 0
  water : t.mob.getD (2 * d) 0 = s.mob.getD (2 * d) 0
  oil : t.mob.getD (2 * d + 1) 0 = s.mob.getD (2 * d + 1) 0

theorem SameAt.good {E : Env} {s t : State} {d : Nat} (h : SameAt s t d) (hg : Good E s d) : Good E t d :=
  ⟨by rw [h.sat]; exact hg.lower, by rw [h.sat]; exact hg.upper, by rw [h.sat, h.water]; exact hg.water, by rw [h.sat, h.oil]; exact hg.oil⟩

theorem SameAt.trans {s t u : State} {d : Nat} (h : SameAt s t d) (h' : SameAt t u d) : SameAt s u d :=
  ⟨h'.sat.trans h.sat, h'.water.trans h.water, h'.oil.trans h.oil⟩

theorem counter_zero {w o : Rat} (hw : 0 ≤ w) (ho : 0 ≤ o) (h : ¬0 < w + o) : counterMobility w o = 0 := by
  have : w + o = 0 := by linarith
  unfold counterMobility
  rw [this, div_zero]

theorem counter_nonneg {w o : Rat} (hw : 0 ≤ w) (ho : 0 ≤ o) : 0 ≤ counterMobility w o := div_nonneg (mul_nonneg hw ho) (by linarith)

/-- The contribution of the lower neighbour is the flow downwards. -/
theorem term_below {k G a b c d : Rat} (ha : 0 ≤ a) (hb : 0 ≤ b) (hc : 0 ≤ c) (hd : 0 ≤ d) :
    term k (a, b) (some { gf := G, mobw := c, mobo := d }) = k * (if G < 0 then -G * counterMobility a d else -(G * counterMobility c b)) := by
  unfold term chosen
  simp only
  by_cases hG : G < 0
  · simp only [if_pos hG]
    by_cases h : 0 < a + d
    · rw [if_pos h]; unfold counterMobility; field_simp
    · rw [if_neg h, counter_zero ha hd h]; ring
  · simp only [if_neg hG]
    by_cases h : 0 < c + b
    · rw [if_pos h]; unfold counterMobility; field_simp
    · rw [if_neg h, counter_zero hc hb h]; ring

/-- The contribution of the upper neighbour is minus the flow from above. -/
theorem term_above {k G a b c d : Rat} (ha : 0 ≤ a) (hb : 0 ≤ b) (hc : 0 ≤ c) (hd : 0 ≤ d) :
    term k (a, b) (some { gf := -G, mobw := c, mobo := d }) = -(k * (if G < 0 then -G * counterMobility c b else -(G * counterMobility a d))) := by
  rw [term_below ha hb hc hd]
  rcases lt_trichotomy G 0 with hG | hG | hG
  · rw [if_neg (by linarith), if_pos hG]; ring
  · subst hG; simp
  · rw [if_pos (by linarith), if_neg (by linarith)]; ring

/-- The column is a list of different cells of the grid. -/
structure ColOk (E : Env) (cells : List Nat) : Prop where
  nodup : cells.Nodup
  range : ∀ c ∈ cells, c < E.g.nc

theorem ColOk.get {cells : List Nat} {p : Nat} (hp : p < cells.length) : cells[p]? = some (cells.getD p 0) := by
  simp [List.getD_eq_getElem?_getD, hp]

theorem ColOk.lt {E : Env} {cells : List Nat} (h : ColOk E cells) {p : Nat} (hp : p < cells.length) : cells.getD p 0 < E.g.nc :=
  h.range _ (List.mem_of_getElem? (ColOk.get hp))

theorem ColOk.inj {E : Env} {cells : List Nat} (h : ColOk E cells) {p q : Nat} (hp : p < cells.length) (hq : q < cells.length)
    (e : cells.getD p 0 = cells.getD q 0) : p = q := by
  have := (List.nodup_iff_getElem?_ne_getElem?.1 h.nodup)
  rcases lt_trichotomy p q with hl | hl | hl
  · exact absurd (by rw [ColOk.get hp, ColOk.get hq, e]) (this p q hl hq)
  · exact hl
  · exact absurd (by rw [ColOk.get hp, ColOk.get hq, e]) (this q p hl hp)

/-- The fluxes of the column. -/
def FluxOk (G : Nat → Nat → Rat) (cells : List Nat) (gravflux : List Rat) : Prop :=
  ∀ p, p + 1 < cells.length → gravflux[p]? = some (G (cells.getD p 0) (cells.getD (p + 1) 0))

/-- The residual of the specification, for this environment. -/
def resid (E : Env) (G : Nat → Nat → Rat) (cells : List Nat) (p : Nat) (s0 : Rat) (y : Nat → Rat) : Rat → Rat :=
  segregationResidual (mobs E) G E.pv E.dt cells p s0 y

theorem neighbour_ok {E : Env} {s : State} (hs : Fits E s) {c : Nat} (hc : c < E.g.nc) (gf : Rat) :
    neighbour s c gf = .ok (some { gf := gf, mobw := s.mob.getD (2 * c) 0, mobo := s.mob.getD (2 * c + 1) 0 }) := by
  unfold neighbour
  rw [rd_of_getElem? (getElem?_getD (by have := hs.mob; omega)), bind_ok, rd_of_getElem? (getElem?_getD (by have := hs.mob; omega)), bind_ok]

/-- The residual of the code is that of the specification. -/
theorem mkResidual_ok {E : Env} (h : EnvOk E) {G : Nat → Nat → Rat} {cells : List Nat} {gravflux : List Rat} (hc : ColOk E cells) (hG : FluxOk G cells gravflux)
    {s : State} (hs : Fits E s) {p : Nat} (hp : p < cells.length) (hgood : ∀ c ∈ cells, c ≠ cells.getD p 0 → Good E s c) :
    ∃ r, mkResidual E s cells p gravflux = .ok r ∧ ∀ x, lo E (cells.getD p 0) ≤ x → x ≤ hi E (cells.getD p 0) →
      r.eval E.fluid (cells.getD p 0) x = resid E G cells p (s.sat.getD (cells.getD p 0) 0) (fun c => s.sat.getD c 0) x := by
  have hcp := hc.lt hp
  have ha : ∃ o, aboveOf s cells p gravflux = .ok o ∧ ∀ x, lo E (cells.getD p 0) ≤ x → x ≤ hi E (cells.getD p 0) →
      term (E.dt / E.pv.getD (cells.getD p 0) 0) (mobility E.fluid x (cells.getD p 0)) o =
        -(E.dt / E.pv.getD (cells.getD p 0) 0 * fromAbove (mobs E) G cells p (fun c => s.sat.getD c 0) (fun _ => x)) := by
    unfold aboveOf fromAbove
    by_cases h0 : 0 < p
    · have hq : p - 1 < cells.length := by omega
      have hne : cells.getD (p - 1) 0 ≠ cells.getD p 0 := fun e => by have := hc.inj hq hp e; omega
      have hg := hgood _ (List.mem_of_getElem? (ColOk.get hq)) hne
      have hf := hG (p - 1) (by omega)
      rw [Nat.sub_add_cancel h0] at hf
      rw [if_pos h0, rd_of_getElem? (ColOk.get hq), bind_ok, rd_of_getElem? hf, bind_ok, neighbour_ok hs (hc.lt hq)]
      refine ⟨_, rfl, fun x hx1 hx2 => ?_⟩
      have n1 := h.proper.nonneg _ hcp x hx1 hx2
      have n2 := h.proper.nonneg _ (hc.lt hq) _ hg.lower hg.upper
      rw [hg.water, hg.oil, if_pos h0]
      exact term_above n1.1 n1.2 n2.1 n2.2
    · rw [if_neg h0]
      exact ⟨_, rfl, fun x _ _ => by rw [if_neg h0]; simp [term]⟩
  have hb : ∃ o, belowOf s cells p gravflux = .ok o ∧ ∀ x, lo E (cells.getD p 0) ≤ x → x ≤ hi E (cells.getD p 0) →
      term (E.dt / E.pv.getD (cells.getD p 0) 0) (mobility E.fluid x (cells.getD p 0)) o =
        E.dt / E.pv.getD (cells.getD p 0) 0 * downwards (mobs E) G cells p (fun _ => x) (fun c => s.sat.getD c 0) := by
    unfold belowOf downwards
    by_cases h0 : p + 1 < cells.length
    · have hne : cells.getD (p + 1) 0 ≠ cells.getD p 0 := fun e => by have := hc.inj h0 hp e; omega
      have hg := hgood _ (List.mem_of_getElem? (ColOk.get h0)) hne
      rw [if_pos h0, rd_of_getElem? (ColOk.get h0), bind_ok, rd_of_getElem? (hG p h0), bind_ok, neighbour_ok hs (hc.lt h0)]
      refine ⟨_, rfl, fun x hx1 hx2 => ?_⟩
      have n1 := h.proper.nonneg _ hcp x hx1 hx2
      have n2 := h.proper.nonneg _ (hc.lt h0) _ hg.lower hg.upper
      rw [hg.water, hg.oil, if_pos h0]
      exact term_below n1.1 n1.2 n2.1 n2.2
    · rw [if_neg h0]
      exact ⟨_, rfl, fun x _ _ => by rw [if_neg h0]; simp [term]⟩
  obtain ⟨o1, e1, f1⟩ := ha
  obtain ⟨o2, e2, f2⟩ := hb
  unfold mkResidual
  rw [rd_of_getElem? (ColOk.get hp), bind_ok, e1, bind_ok, e2, bind_ok, rd_of_getElem? (getElem?_getD (by rw [hs.sat]; exact hcp)), bind_ok,
    rd_of_getElem? (getElem?_getD (by have := h.lenPv; omega)), bind_ok, fdiv, if_neg (h.pvPos _ hcp).ne', bind_ok]
  refine ⟨_, rfl, fun x hx1 hx2 => ?_⟩
  unfold Residual.eval resid segregationResidual
  simp only
  rw [f1 x hx1 hx2, f2 x hx1 hx2]
  ring

/-- The ends of the range bracket a zero. -/
theorem bracketed {E : Env} (h : EnvOk E) {G : Nat → Nat → Rat} {cells : List Nat} (hc : ColOk E cells) {p : Nat} (hp : p < cells.length)
    {y : Nat → Rat} (hy : ∀ c ∈ cells, c ≠ cells.getD p 0 → lo E c ≤ y c ∧ y c ≤ hi E c) {s0 : Rat} (h0 : lo E (cells.getD p 0) ≤ s0) (h1 : s0 ≤ hi E (cells.getD p 0)) :
    resid E G cells p s0 y (lo E (cells.getD p 0)) ≤ 0 ∧ 0 ≤ resid E G cells p s0 y (hi E (cells.getD p 0)) := by
  have hcp := hc.lt hp
  have hd : 0 ≤ E.dt / E.pv.getD (cells.getD p 0) 0 := div_nonneg h.dtPos (h.pvPos _ hcp).le
  have hlh := h.proper.order _ hcp
  have nl := h.proper.nonneg _ hcp _ (le_refl _) hlh
  have nh := h.proper.nonneg _ hcp _ hlh (le_refl _)
  have z0 : ∀ a : Rat, counterMobility 0 a = 0 := fun a => by simp [counterMobility]
  have z1 : ∀ a : Rat, counterMobility a 0 = 0 := fun a => by simp [counterMobility]
  have d0 : downwards (mobs E) G cells p (fun _ => lo E (cells.getD p 0)) y ≤ 0 ∧ 0 ≤ downwards (mobs E) G cells p (fun _ => hi E (cells.getD p 0)) y := by
    unfold downwards
    by_cases hq : p + 1 < cells.length
    · have hne : cells.getD (p + 1) 0 ≠ cells.getD p 0 := fun e => by have := hc.inj hq hp e; omega
      have hy' := hy _ (List.mem_of_getElem? (ColOk.get hq)) hne
      have n2 := h.proper.nonneg _ (hc.lt hq) _ hy'.1 hy'.2
      rw [if_pos hq, if_pos hq]
      unfold waterExchange
      rw [h.proper.water _ hcp, h.proper.oil _ hcp, z0, z1]
      split
      · rename_i hG
        exact ⟨by simp, mul_nonneg (by linarith) (counter_nonneg nh.1 n2.2)⟩
      · rename_i hG
        exact ⟨neg_nonpos.2 (mul_nonneg (not_lt.1 hG) (counter_nonneg n2.1 nl.2)), by simp⟩
    · rw [if_neg hq, if_neg hq]
      exact ⟨le_refl _, le_refl _⟩
  have a0 : 0 ≤ fromAbove (mobs E) G cells p y (fun _ => lo E (cells.getD p 0)) ∧ fromAbove (mobs E) G cells p y (fun _ => hi E (cells.getD p 0)) ≤ 0 := by
    unfold fromAbove
    by_cases hq : 0 < p
    · have hq' : p - 1 < cells.length := by omega
      have hne : cells.getD (p - 1) 0 ≠ cells.getD p 0 := fun e => by have := hc.inj hq' hp e; omega
      have hy' := hy _ (List.mem_of_getElem? (ColOk.get hq')) hne
      have n2 := h.proper.nonneg _ (hc.lt hq') _ hy'.1 hy'.2
      rw [if_pos hq, if_pos hq]
      unfold waterExchange
      rw [h.proper.water _ hcp, h.proper.oil _ hcp, z0, z1]
      split
      · rename_i hG
        exact ⟨mul_nonneg (by linarith) (counter_nonneg n2.1 nl.2), by simp⟩
      · rename_i hG
        exact ⟨by simp, neg_nonpos.2 (mul_nonneg (not_lt.1 hG) (counter_nonneg nh.1 n2.2))⟩
    · rw [if_neg hq, if_neg hq]
      exact ⟨le_refl _, le_refl _⟩
  unfold resid segregationResidual
  constructor
  · have : E.dt / E.pv.getD (cells.getD p 0) 0 * (downwards (mobs E) G cells p (fun _ => lo E (cells.getD p 0)) y - fromAbove (mobs E) G cells p y (fun _ => lo E (cells.getD p 0))) ≤ 0 :=
      mul_nonpos_of_nonneg_of_nonpos hd (by linarith [d0.1, a0.1])
    linarith
  · have : 0 ≤ E.dt / E.pv.getD (cells.getD p 0) 0 * (downwards (mobs E) G cells p (fun _ => hi E (cells.getD p 0)) y - fromAbove (mobs E) G cells p y (fun _ => hi E (cells.getD p 0))) :=
      mul_nonneg hd (by linarith [d0.2, a0.2])
    linarith

/-- The equation of the cell is solved, or the root finder ran out of iterations on it. -/
def Solved (E : Env) (G : Nat → Nat → Rat) (cells : List Nat) (p : Nat) (s0 : Rat) (y : Nat → Rat) (s : Rat) : Prop :=
  NearZeroIn (lo E (cells.getD p 0)) (hi E (cells.getD p 0)) E.tol (resid E G cells p s0 y) s ∨
    ∃ R r n, (∀ x, lo E (cells.getD p 0) ≤ x → x ≤ hi E (cells.getD p 0) → R x = resid E G cells p s0 y x) ∧
      RootFinders.solve .warnAndContinue R (lo E (cells.getD p 0)) (hi E (cells.getD p 0)) E.maxit E.tol = .ok r ∧ r.iterations = some n ∧ E.maxit < (n : Int)

theorem root_ok {E : Env} (h : EnvOk E) {G : Nat → Nat → Rat} {cells : List Nat} (hc : ColOk E cells) {p : Nat} (hp : p < cells.length) {y : Nat → Rat}
    (hy : ∀ c ∈ cells, c ≠ cells.getD p 0 → lo E c ≤ y c ∧ y c ≤ hi E c) {s0 : Rat} (h0 : lo E (cells.getD p 0) ≤ s0) (h1 : s0 ≤ hi E (cells.getD p 0)) {r : Residual}
    (hr : ∀ x, lo E (cells.getD p 0) ≤ x → x ≤ hi E (cells.getD p 0) → r.eval E.fluid (cells.getD p 0) x = resid E G cells p s0 y x) :
    ∃ v, root E (cells.getD p 0) r s0 (lo E (cells.getD p 0)) (hi E (cells.getD p 0)) = .ok v ∧ (lo E (cells.getD p 0) ≤ v.1 ∧ v.1 ≤ hi E (cells.getD p 0)) ∧
      Solved E G cells p s0 y v.1 := by
  have hcp := hc.lt hp
  have hlh := h.proper.order _ hcp
  obtain ⟨b0, b1⟩ := bracketed h (G := G) hc hp hy h0 h1
  have hbt : ∀ x : Rat, RootFinders.Between (lo E (cells.getD p 0)) (hi E (cells.getD p 0)) x ↔ lo E (cells.getD p 0) ≤ x ∧ x ≤ hi E (cells.getD p 0) := by
    intro x
    unfold RootFinders.Between
    rw [min_eq_left hlh, max_eq_right hlh]
  unfold root
  simp only
  by_cases ht : max (r.eval E.fluid (cells.getD p 0) s0) (-r.eval E.fluid (cells.getD p 0) s0) > E.tol
  · rw [if_pos ht]
    rcases RootFinders.regula_falsi_bracket .warnAndContinue (r.eval E.fluid (cells.getD p 0)) (lo E (cells.getD p 0)) (hi E (cells.getD p 0)) E.maxit E.tol h.tolPos with ⟨res, e2, hgood, _⟩ | ⟨hx, _⟩
    · rw [e2, bind_ok]
      have hv := (hbt _).1 hgood.value
      refine ⟨_, rfl, hv, ?_⟩
      have hlo := hr _ (le_refl _) hlh
      have hhi := hr _ hlh (le_refl _)
      rcases hgood.why with hw | ⟨x0, x1, hx0, hx1, hf, hwid, hval⟩ | ⟨-, hw | ⟨n, hn, hlt⟩⟩
      · left; left
        rw [hr _ hv.1 hv.2, hlo] at hw
        exact hw
      · left; right
        have q0 := (hbt _).1 hx0
        have q1 := (hbt _).1 hx1
        rw [hr _ q0.1 q0.2, hr _ q1.1 q1.2] at hf
        exact ⟨x0, x1, q0, q1, hf, hwid, hval⟩
      · rw [hlo, hhi] at hw
        exact absurd hw (not_lt.2 (mul_nonpos_of_nonpos_of_nonneg b0 b1))
      · exact .inr ⟨_, res, n, hr, e2, hn, hlt⟩
    · cases hx
  · rw [if_neg ht]
    refine ⟨_, rfl, ⟨h0, h1⟩, .inl (.inl ?_)⟩
    rw [← abs_eq_max_neg, hr _ h0 h1] at ht
    have : (0 : Rat) < 1 / 2 ^ 52 * max |resid E G cells p s0 y (lo E (cells.getD p 0))| 1 := mul_pos (by norm_num) (lt_of_lt_of_le one_pos (le_max_right _ _))
    show |resid E G cells p s0 y s0| < _
    linarith [not_lt.1 ht]

theorem visit_ok {E : Env} (h : EnvOk E) {G : Nat → Nat → Rat} {cells : List Nat} {gravflux s0 : List Rat} (hc : ColOk E cells) (hG : FluxOk G cells gravflux)
    (hs0 : s0.length = cells.length) {s : State} (hs : Fits E s) {p : Nat} (hp : p < cells.length) (hgood : ∀ c ∈ cells, c ≠ cells.getD p 0 → Good E s c)
    (h0 : lo E (cells.getD p 0) ≤ s0.getD p 0) (h1 : s0.getD p 0 ≤ hi E (cells.getD p 0)) :
    ∃ s', visit E cells gravflux s0 p s = .ok s' ∧ Fits E s' ∧ (∀ d, d ≠ cells.getD p 0 → SameAt s s' d) ∧ Good E s' (cells.getD p 0) ∧
      Solved E G cells p (s0.getD p 0) (fun c => s.sat.getD c 0) (s'.sat.getD (cells.getD p 0) 0) := by
  have hcp := hc.lt hp
  have hfit : Fits E { s with sat := s.sat.set (cells.getD p 0) (s0.getD p 0) } := ⟨by simp [hs.sat], hs.mob, hs.iters⟩
  have hsame : ∀ d, d ≠ cells.getD p 0 → (s.sat.set (cells.getD p 0) (s0.getD p 0)).getD d 0 = s.sat.getD d 0 := fun d hd => by
    simp only [List.getD_eq_getElem?_getD]
    rw [List.getElem?_set_ne (by simpa [List.getD_eq_getElem?_getD] using Ne.symm hd)]
  have hself : (s.sat.set (cells.getD p 0) (s0.getD p 0)).getD (cells.getD p 0) 0 = s0.getD p 0 := by
    have : cells.getD p 0 < s.sat.length := by rw [hs.sat]; exact hcp
    simp only [List.getD_eq_getElem?_getD] at this ⊢
    simp [this]
  obtain ⟨r, e, hr⟩ := mkResidual_ok h hc hG hfit hp (fun c hm hne => by
    have hg := hgood c hm hne
    exact ⟨by simp only [hsame c hne]; exact hg.lower, by simp only [hsame c hne]; exact hg.upper, by simp only [hsame c hne]; exact hg.water, by simp only [hsame c hne]; exact hg.oil⟩)
  simp only [hself] at hr
  have hr' : ∀ x, lo E (cells.getD p 0) ≤ x → x ≤ hi E (cells.getD p 0) → r.eval E.fluid (cells.getD p 0) x = resid E G cells p (s0.getD p 0) (fun c => s.sat.getD c 0) x := by
    intro x hx1 hx2
    rw [hr x hx1 hx2]
    unfold resid segregationResidual downwards fromAbove
    simp only
    congr 2
    congr 1
    · split
      · rename_i hq
        rw [hsame _ (fun e => by have := hc.inj hq hp e; omega)]
      · rfl
    · split
      · rename_i hq
        rw [hsame _ (fun e => by have := hc.inj (p := p - 1) (by omega) hp e; omega)]
      · rfl
  obtain ⟨v, e3, hv, hsol⟩ := root_ok h (G := G) hc hp (y := fun c => s.sat.getD c 0) (fun c hm hne => ⟨(hgood c hm hne).lower, (hgood c hm hne).upper⟩) h0 h1 hr'
  have hclamp : min (max v.1 (lo E (cells.getD p 0))) (hi E (cells.getD p 0)) = v.1 := by rw [max_eq_left hv.1, min_eq_left hv.2]
  have hit : s.iters[cells.getD p 0]? = some (s.iters.getD (cells.getD p 0) 0) := by
    have : cells.getD p 0 < s.iters.length := by rw [hs.iters]; exact hcp
    simp only [List.getD_eq_getElem?_getD] at this ⊢
    simp [this]
  have l1 := hs.sat
  have l2 := hs.mob
  have l3 := hs.iters
  unfold visit solveSingleCell
  rw [rd_of_getElem? (ColOk.get hp), bind_ok, rd_of_getElem? (getElem?_getD (by omega)), bind_ok, wr_ok (by omega), bind_ok,
    bind_ok, e, bind_ok, rd_of_getElem? (getElem?_getD (by simp only [List.length_set]; omega)), bind_ok, hself,
    rd_of_getElem? (getElem?_getD (a := E.smin) (j := 2 * cells.getD p 0) (by have := h.lenMin; omega)), bind_ok,
    rd_of_getElem? (getElem?_getD (a := E.smax) (j := 2 * cells.getD p 0) (by have := h.lenMax; omega)), bind_ok]
  change ∃ s', (root E (cells.getD p 0) r (s0.getD p 0) (lo E (cells.getD p 0)) (hi E (cells.getD p 0)) >>= _) = _ ∧ _
  rw [e3, bind_ok, rd_of_getElem? hit, bind_ok, wr_ok (show cells.getD p 0 < s.iters.length by omega), bind_ok]
  change ∃ s', ((wr (s.sat.set (cells.getD p 0) (s0.getD p 0)) (cells.getD p 0) (min (max v.1 (lo E (cells.getD p 0))) (hi E (cells.getD p 0)))) >>= _) = _ ∧ _
  rw [wr_ok (by simp only [List.length_set]; omega), bind_ok]
  change ∃ s', ((wr s.mob (2 * cells.getD p 0) (mobility E.fluid (min (max v.1 (lo E (cells.getD p 0))) (hi E (cells.getD p 0))) (cells.getD p 0)).1) >>= _) = _ ∧ _
  rw [hclamp, wr_ok (by omega), bind_ok]
  change ∃ s', ((wr _ (2 * cells.getD p 0 + 1) (mobility E.fluid (min (max v.1 (lo E (cells.getD p 0))) (hi E (cells.getD p 0))) (cells.getD p 0)).2) >>= _) = _ ∧ _
  rw [hclamp, wr_ok (by simp only [List.length_set]; omega), bind_ok]
  have g1 : ((s.sat.set (cells.getD p 0) (s0.getD p 0)).set (cells.getD p 0) v.1).getD (cells.getD p 0) 0 = v.1 := by
    have : cells.getD p 0 < s.sat.length := by omega
    simp only [List.getD_eq_getElem?_getD] at this ⊢
    simp [this]
  refine ⟨_, rfl, ⟨by simp [hs.sat], by simp [hs.mob], by simp [hs.iters]⟩, fun d hd => ⟨?_, ?_, ?_⟩, ⟨?_, ?_, ?_, ?_⟩, ?_⟩
  · simp only [List.getD_eq_getElem?_getD]
    rw [List.getElem?_set_ne (by simpa [List.getD_eq_getElem?_getD] using Ne.symm hd), List.getElem?_set_ne (by simpa [List.getD_eq_getElem?_getD] using Ne.symm hd)]
  · simp only [List.getD_eq_getElem?_getD]
    simp only [List.getD_eq_getElem?_getD] at hd
    rw [List.getElem?_set_ne (by omega), List.getElem?_set_ne (by omega)]
  · simp only [List.getD_eq_getElem?_getD]
    simp only [List.getD_eq_getElem?_getD] at hd
    rw [List.getElem?_set_ne (by omega), List.getElem?_set_ne (by omega)]
  · simp only [g1]; exact hv.1
  · simp only [g1]; exact hv.2
  · simp only [g1]
    have : 2 * cells.getD p 0 < s.mob.length := by omega
    simp only [List.getD_eq_getElem?_getD] at this ⊢
    rw [List.getElem?_set_ne (by omega)]
    simp [this, mobs]
  · simp only [g1]
    have : 2 * cells.getD p 0 + 1 < s.mob.length := by omega
    simp only [List.getD_eq_getElem?_getD] at this ⊢
    simp [this, mobs]
  · simp only [g1]; exact hsol

end Opm.GravitySegregation
