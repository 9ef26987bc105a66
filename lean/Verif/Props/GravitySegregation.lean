import Verif.Proofs.GravityAll
import Verif.Props.ColumnExtract
import Verif.Proofs.GridValid
/-!
# Gravity segregation in columns (C83)

`solveGravity` solves, column by column, the implicit equations of segregation: every saturation stays in its range, and the equation of each cell holds up to the
tolerance with saturations of its neighbours that differ from the final ones by at most two tolerances.  Otherwise it throws.
-/

namespace Opm.GravitySegregation.Props
open Opm Opm.TwophaseReorder

/-- The smallest and the largest water saturation of a cell. -/
def least (E : Env) (c : Nat) : Rat := E.smin.getD (2 * c) 0
def largest (E : Env) (c : Nat) : Rat := E.smax.getD (2 * c) 0

/-- The mobilities of water and oil in a cell filled to the saturation `s` with water and with oil for the rest. -/
def mobilities (E : Env) (c : Nat) (s : Rat) : Rat × Rat := ((E.fluid.relperm c s (1 - s)).1 / E.fluid.mu.1, (E.fluid.relperm c s (1 - s)).2 / E.fluid.mu.2)

/-- The arguments of the solver fit together. -/
structure GravityData (E : Env) : Prop where
  valid : E.g.Valid
  lenPv : E.g.nc ≤ E.pv.length
  pvPos : ∀ c < E.g.nc, 0 < E.pv.getD c 0
  lenGrav : E.gravflux.length = E.g.nf
  lenMin : E.smin.length = 2 * E.g.nc
  lenMax : E.smax.length = 2 * E.g.nc
  dtPos : 0 ≤ E.dt
  tolPos : 0 ≤ E.tol
  proper : ProperMobilities E.g.nc (mobilities E) (least E) (largest E)

theorem GravityData.ok {E : Env} (h : GravityData E) : EnvOk E :=
  ⟨h.valid, h.lenPv, h.pvPos, h.lenGrav, h.lenMin, h.lenMax, h.dtPos, h.tolPos, h.proper⟩

/-- The columns have each cell once, and consecutive cells of a column have at most one face in common. -/
structure Columns (E : Env) (cols : List (List Nat)) : Prop where
  once : cols.flatten.Perm (List.range E.g.nc)
  nonempty : [] ∉ cols
  one : ∀ col ∈ cols, ∀ p, p + 1 < col.length → E.g.OneFace (col.getD p 0) (col.getD (p + 1) 0)

/-- The saturations of a state: in their ranges, adding up to one. -/
structure Saturations (E : Env) (both : List Rat) : Prop where
  len : both.length = 2 * E.g.nc
  range : ∀ c < E.g.nc, least E c ≤ both.getD (2 * c) 0 ∧ both.getD (2 * c) 0 ≤ largest E c
  one : ∀ c < E.g.nc, both.getD (2 * c) 0 + both.getD (2 * c + 1) 0 = 1

/-- The equation of segregation of the cell at position `p` of the column, in its saturation after the step. -/
def equation (E : Env) (both : List Rat) (col : List Nat) (p : Nat) (y : Nat → Rat) : Rat → Rat :=
  segregationResidual (mobilities E) (E.g.between E.gravflux) E.pv E.dt col p (both.getD (2 * col.getD p 0) 0) y

/-- The root finder gives up on a function that is `R` in the range of the cell. -/
def GivesUp (E : Env) (c : Nat) (R : Rat → Rat) : Prop :=
  ∃ R' r n, (∀ x, least E c ≤ x → x ≤ largest E c → R' x = R x) ∧
    RootFinders.solve .warnAndContinue R' (least E c) (largest E c) E.maxit E.tol = .ok r ∧ r.iterations = some n ∧ E.maxit < (n : Int)

/-- The saturations `y` of the other cells of the column are admissible and differ from the final ones by at most two tolerances. -/
def NearlyFinal (E : Env) (both' : List Rat) (col : List Nat) (p : Nat) (y : Nat → Rat) : Prop :=
  ∀ q, q < col.length → q ≠ p → (least E (col.getD q 0) ≤ y (col.getD q 0) ∧ y (col.getD q 0) ≤ largest E (col.getD q 0)) ∧
    |y (col.getD q 0) - both'.getD (2 * col.getD q 0) 0| ≤ 2 * E.tol

private theorem columns_split {E : Env} {cols : List (List Nat)} (hc : Columns E cols) : (∀ col ∈ cols, Column E col) ∧ cols.flatten.Nodup := by
  have hnd : cols.flatten.Nodup := hc.once.nodup_iff.2 List.nodup_range
  refine ⟨fun col hm => ⟨⟨(List.nodup_flatten.1 hnd).1 col hm, fun c hcm => ?_⟩, fun e => hc.nonempty (e ▸ hm), hc.one col hm⟩, hnd⟩
  have := hc.once.mem_iff.1 (List.mem_flatten.2 ⟨col, hm, hcm⟩)
  exact List.mem_range.1 this

/-- **Segregation.**  For every valid mesh with such columns, all gravity fluxes, pore volumes, time steps and proper fluids, `solveGravity` either throws, or each cell keeps its
saturations in range and adding up to one, and satisfies the implicit equation of segregation up to the tolerance (or the root finder, which is asked for a zero it is
guaranteed to bracket, ran out of iterations on this very equation). -/
theorem segregation_solved {E : Env} (h : GravityData E) {cols : List (List Nat)} (hc : Columns E cols) {both : List Rat} (hb : Saturations E both)
    (sat : List Rat) {iters : List Nat} (hi : iters.length = E.g.nc) :
    solveGravity E cols sat iters both = .error .thrown ∨
    ∃ both', solveGravity E cols sat iters both = .ok both' ∧ Saturations E both' ∧
      ∀ col ∈ cols, ∀ p, p < col.length → ∃ y : Nat → Rat, NearlyFinal E both' col p y ∧
        (NearZeroIn (least E (col.getD p 0)) (largest E (col.getD p 0)) E.tol (equation E both col p y) (both'.getD (2 * col.getD p 0) 0) ∨
          GivesUp E (col.getD p 0) (equation E both col p y)) := by
  obtain ⟨hcol, hnd⟩ := columns_split hc
  obtain ⟨mob, e1, l1, v1⟩ := initMobilities_ok hb.len hb.one
  obtain ⟨sw, e2, l2, v2⟩ := toWaterSat_ok sat hb.len
  unfold solveGravity
  rw [e1, bind_ok, e2, bind_ok]
  rcases columns_ok h.ok cols { sat := sw, mob := mob, iters := iters } hcol hnd ⟨l2, l1, hi⟩ (fun c hcc => by
    have hr := hb.range c hcc
    refine ⟨?_, ?_, ?_, ?_⟩ <;> simp only <;> rw [v2 c hcc]
    · exact hr.1
    · exact hr.2
    · exact (v1 c hcc).1
    · exact (v1 c hcc).2) with ⟨s', e3, f3, g3, -, q3⟩ | e3
  · rw [e3, bind_ok]
    obtain ⟨b', e6, lb, hb', -⟩ := MiscUtil.both_water_round_trip s'.sat both []
    rw [e6]
    rw [f3.sat] at lb hb'
    refine .inr ⟨b', rfl, ⟨lb, fun c hcc => ?_, fun c hcc => (hb' c hcc).2⟩, fun col hm p hp => ?_⟩
    · rw [(hb' c hcc).1]
      exact ⟨(g3 c hcc).lower, (g3 c hcc).upper⟩
    · obtain ⟨y, hy, hsol⟩ := q3 col hm p hp
      have hlt : ∀ q, q < col.length → col.getD q 0 < E.g.nc := fun q hq => (hcol col hm).ok.lt hq
      refine ⟨y, fun q hq hne => ?_, ?_⟩
      · rw [(hb' _ (hlt q hq)).1]
        exact hy q hq hne
      · rw [(hb' _ (hlt p hp)).1]
        have : sw.getD (col.getD p 0) 0 = both.getD (2 * col.getD p 0) 0 := v2 _ (hlt p hp)
        unfold Solved at hsol
        simp only [this] at hsol
        exact hsol
  · rw [e3]
    exact .inl rfl

/-- **With the columns of the grid.**  The columns that `extractColumn` finds are columns in this sense if cells above each other have at most one common face. -/
theorem extracted_columns {g : ColumnExtract.ColGrid} {cols : List (List Nat)} (hs : ColumnExtract.Stacks g cols) {E : Env} (hE : E.g = g.topo)
    (one : ∀ c d, c < E.g.nc → d < E.g.nc → g.SameColumn c d → E.g.OneFace c d) : Columns E cols := by
  refine ⟨by rw [hE]; exact hs.once, hs.nonempty, fun col hm p hp => ?_⟩
  have hlt : ∀ q, q < col.length → col.getD q 0 < E.g.nc := fun q hq => by
    have := hs.once.mem_iff.1 (List.mem_flatten.2 ⟨col, hm, List.mem_of_getElem? (ColOk.get hq)⟩)
    rw [hE]
    exact List.mem_range.1 this
  refine one _ _ (hlt p (by omega)) (hlt (p + 1) hp) ?_
  have := List.pairwise_iff_getElem.1 (hs.order col hm) p (p + 1) (by omega) hp (by omega)
  rw [List.getD_eq_getElem?_getD, List.getD_eq_getElem?_getD, List.getElem?_eq_getElem (by omega), List.getElem?_eq_getElem hp]
  exact this.1

/-- **Balance of water.**  If the exchange between neighbours depends on the saturations with Lipschitz constant `L` and no cell made the root finder give up, the water in a
column changes by no more than what the tolerances allow. -/
theorem segregation_balance {E : Env} (h : GravityData E) {cols : List (List Nat)} (hc : Columns E cols) {both : List Rat} (hb : Saturations E both)
    {sat : List Rat} {iters : List Nat} (hi : iters.length = E.g.nc) {both' : List Rat} (hok : solveGravity E cols sat iters both = .ok both')
    {col : List Nat} (hm : col ∈ cols) {L ε : Rat} (hL0 : 0 ≤ L)
    (hL : ∀ p, p + 1 < col.length → LipschitzExchange (mobilities E) (E.g.between E.gravflux) (least E) (largest E) L (col.getD p 0) (col.getD (p + 1) 0))
    (hroot : ∀ p, p < col.length → ∀ y, ¬GivesUp E (col.getD p 0) (equation E both col p y))
    (hε1 : ∀ p, p < col.length → ∀ y, NearlyFinal E both' col p y → E.tol + 1 / 2 ^ 52 * max |equation E both col p y (least E (col.getD p 0))| 1 ≤ ε)
    (hε2 : ∀ p, p < col.length → (1 + 2 * L * (E.dt / E.pv.getD (col.getD p 0) 0)) *
      (1 / 10 ^ 9 * (E.tol + 1 / 2 ^ 52 * max (max |least E (col.getD p 0)| |largest E (col.getD p 0)|) 1)) ≤ ε) :
    |∑ p ∈ Finset.range col.length, E.pv.getD (col.getD p 0) 0 * (both'.getD (2 * col.getD p 0) 0 - both.getD (2 * col.getD p 0) 0)| ≤
      ∑ p ∈ Finset.range col.length, (E.pv.getD (col.getD p 0) 0 * ε + 4 * E.dt * L * E.tol) := by
  rcases segregation_solved h hc hb sat hi with e | ⟨b, e, hs, hsol⟩
  · rw [hok] at e; cases e
  · rw [hok] at e
    cases e
    have hk := (columns_split hc).1 col hm
    have hlt : ∀ q, q < col.length → col.getD q 0 < E.g.nc := fun q hq => hk.ok.lt hq
    have := column_balance (mob := mobilities E) (G := E.g.between E.gravflux) (lo := least E) (hi := largest E) (L := L) (cells := col) (pv := E.pv) (dt := E.dt) (δ := 2 * E.tol)
      h.dtPos (by linarith [h.tolPos]) hL0 hk.nonempty (fun p hp => h.pvPos _ (hlt p hp)) hL (a := fun c => both.getD (2 * c) 0) (b := fun c => both'.getD (2 * c) 0) (ε := fun _ => ε)
      (fun p hp => hs.range _ (hlt p hp)) (fun p hp => by
        obtain ⟨y, hy, hz | hz⟩ := hsol col hm p hp
        · refine ⟨y, hy, le_trans (nearZero_small (K := 1 + 2 * L * (E.dt / E.pv.getD (col.getD p 0) 0)) (hs.range _ (hlt p hp)) ?_ hz) (max_le (hε1 p hp y hy) (hε2 p hp))⟩
          exact residual_lipschitz (div_nonneg h.dtPos (h.pvPos _ (hlt p hp)).le) hL0 hL hp (fun q hq hne => (hy q hq hne).1)
        · exact absurd hz (hroot p hp y))
    refine le_trans this (le_of_eq (Finset.sum_congr rfl fun p _ => ?_))
    ring

/-! ## The driving force -/

private theorem depthTerm_ok {dim : Nat} {grav centroids : List Rat} (hg : dim ≤ grav.length) {a b nc : Nat} (hl : dim * nc ≤ centroids.length) (ha : a < nc) (hb : b < nc) :
    depthTerm dim grav centroids a b = .ok (potentialDrop dim grav centroids a b) := by
  have hm : ∀ c, c < nc → ∀ d, d < dim → dim * c + d < centroids.length := by
    intro c hc d hd
    have : dim * (c + 1) ≤ dim * nc := Nat.mul_le_mul_left _ hc
    rw [Nat.mul_succ] at this
    omega
  unfold depthTerm
  rw [if_pos (by omega)]
  obtain ⟨t, e, hP⟩ := loop_inv (n := dim) (s := (0 : Rat)) (f := fun d gdz => do
      let x ← rd grav d
      let ca ← rdI centroids ((dim : Int) * a + d)
      let cb ← rdI centroids ((dim : Int) * b + d)
      .ok (gdz + x * (ca - cb)))
    (fun (k : Nat) (t : Rat) => t = ∑ d ∈ Finset.range k, grav.getD d 0 * (centroids.getD (dim * a + d) 0 - centroids.getD (dim * b + d) 0))
    (by simp) (fun d t hd ht => by
      have ea : (dim : Int) * a + d = ((dim * a + d : Nat) : Int) := by push_cast; rfl
      have eb : (dim : Int) * b + d = ((dim * b + d : Nat) : Int) := by push_cast; rfl
      rw [rd_of_getElem? (getElem?_getD (by omega)), bind_ok, ea, eb, rdI_natCast, rd_of_getElem? (getElem?_getD (hm a ha d hd)), bind_ok, rdI_natCast,
        rd_of_getElem? (getElem?_getD (hm b hb d hd)), bind_ok]
      exact ⟨_, rfl, by rw [Finset.sum_range_succ, ht]⟩)
  rw [e, hP]
  rfl

/-- **The driving force.**  For each face between two cells the flux is the transmissibility times the difference of the densities times the difference of the gravity
potentials; on the boundary it is zero. -/
theorem gravity_flux {g : GridTopo} (hv : g.Valid) {dim : Nat} {grav centroids trans : List Rat} (hg : dim ≤ grav.length) (hl : dim * g.nc ≤ centroids.length)
    (ht : trans.length = g.nf) (rho : Rat × Rat) :
    ∃ gf, initGravity g dim grav centroids rho trans = .ok gf ∧ gf.length = g.nf ∧
      (∀ f (a b : Nat), g.Sides f a b → gf.getD f 0 = trans.getD f 0 * ((rho.1 - rho.2) * potentialDrop dim grav centroids a b)) ∧
      ∀ f, f < g.nf → (∀ a b : Nat, ¬g.Sides f a b) → gf.getD f 0 = 0 := by
  have val : ∀ f, f < g.nf → ∃ x, (∀ u : List Rat, u.length = g.nf → u.getD f 0 = trans.getD f 0 → (do
      let a ← rd g.faceCells (2 * f)
      let b ← rd g.faceCells (2 * f + 1)
      let gdz ← depthTerm dim grav centroids a b
      let t ← rd u f
      wr u f (t * ((rho.1 - rho.2) * gdz))) = .ok (u.set f x)) ∧
      (∀ (a b : Nat), g.Sides f a b → x = trans.getD f 0 * ((rho.1 - rho.2) * potentialDrop dim grav centroids a b)) ∧ ((∀ a b : Nat, ¬g.Sides f a b) → x = 0) := by
    intro f hf
    obtain ⟨a, b, hs⟩ := hv.sides hf
    obtain ⟨ra, rb⟩ := hv.side_range hs
    by_cases hi : a ≠ -1 ∧ b ≠ -1
    · obtain ⟨a, rfl⟩ : ∃ n : Nat, a = n := ⟨a.toNat, by omega⟩
      obtain ⟨b, rfl⟩ : ∃ n : Nat, b = n := ⟨b.toNat, by omega⟩
      refine ⟨trans.getD f 0 * ((rho.1 - rho.2) * potentialDrop dim grav centroids a b), fun u hu hut => ?_, fun a' b' hs' => ?_, fun hn => absurd hs (hn a b)⟩
      · rw [rd_of_getElem? hs.1, bind_ok, rd_of_getElem? hs.2, bind_ok, depthTerm_ok hg hl (by omega) (by omega), bind_ok, rd_of_getElem? (getElem?_getD (by omega)), bind_ok,
          wr_ok (by omega), hut]
      · obtain ⟨h1, h2⟩ := hs.unique hs'
        rw [show a' = a by omega, show b' = b by omega]
    · refine ⟨0, fun u hu hut => ?_, fun a' b' hs' => ?_, fun _ => rfl⟩
      · rw [rd_of_getElem? hs.1, bind_ok, rd_of_getElem? hs.2, bind_ok]
        unfold depthTerm
        rw [if_neg hi, bind_ok, rd_of_getElem? (getElem?_getD (by omega)), bind_ok, wr_ok (by omega), mul_zero, mul_zero]
      · obtain ⟨h1, h2⟩ := hs.unique hs'
        exact absurd ⟨by omega, by omega⟩ hi
  choose! x hx using val
  obtain ⟨gf, e, hl', hdone, -⟩ := loop_inv (n := g.nf) (s := trans) (f := fun f gf => do
      let a ← rd g.faceCells (2 * f)
      let b ← rd g.faceCells (2 * f + 1)
      let gdz ← depthTerm dim grav centroids a b
      let t ← rd gf f
      wr gf f (t * ((rho.1 - rho.2) * gdz)))
    (fun (k : Nat) (u : List Rat) => u.length = g.nf ∧ (∀ f < k, u.getD f 0 = x f) ∧ ∀ f, k ≤ f → u.getD f 0 = trans.getD f 0)
    ⟨ht, fun f hf => by omega, fun f _ => rfl⟩
    (fun k u hk ⟨h1, h2, h3⟩ => by
      rw [(hx k hk).1 u h1 (h3 k (le_refl _))]
      refine ⟨_, rfl, by simp [h1], fun f hf => ?_, fun f hf => ?_⟩
      · by_cases hfk : f = k
        · subst hfk
          rw [List.getD_eq_getElem?_getD, List.getElem?_set_self (by omega), Option.getD_some]
        · rw [List.getD_eq_getElem?_getD, List.getElem?_set_ne (Ne.symm hfk), ← List.getD_eq_getElem?_getD]
          exact h2 f (by omega)
      · rw [List.getD_eq_getElem?_getD, List.getElem?_set_ne (by omega), ← List.getD_eq_getElem?_getD]
        exact h3 f (by omega))
  refine ⟨gf, e, hl', fun f a b hs => ?_, fun f hf hn => ?_⟩
  · have hf : f < g.nf := by
      have := (List.getElem?_eq_some_iff.1 hs.1).1
      rw [hv.fcLen] at this
      omega
    rw [hdone f hf]
    exact (hx f hf).2.1 a b hs
  · rw [hdone f hf]
    exact (hx f hf).2.2 hn

/-- **Water sinks.**  A negative driving force from `c` to `d` (water heavier and `d` lower, or water lighter and `d` higher) moves water from `c` to `d`, a positive one from `d` to `c`. -/
theorem water_sinks {n : Nat} {mob : Nat → Rat → Rat × Rat} {lo hi : Nat → Rat} (h : ProperMobilities n mob lo hi) {c d : Nat} (hc : c < n) (hd : d < n) {x y : Rat}
    (hx : lo c ≤ x ∧ x ≤ hi c) (hy : lo d ≤ y ∧ y ≤ hi d) (G : Rat) :
    (G ≤ 0 → 0 ≤ waterExchange mob G c d x y) ∧ (0 ≤ G → waterExchange mob G c d x y ≤ 0) := by
  have n1 := h.nonneg c hc x hx.1 hx.2
  have n2 := h.nonneg d hd y hy.1 hy.2
  unfold waterExchange
  constructor
  · intro hG
    split
    · exact mul_nonneg (by linarith) (counter_nonneg n1.1 n2.2)
    · rename_i hn
      rw [show G = 0 by linarith [not_lt.1 hn]]
      simp
  · intro hG
    rw [if_neg (by linarith)]
    exact neg_nonpos.2 (mul_nonneg hG (counter_nonneg n2.1 n1.2))

/-! ## Concrete cases -/

/-- Three cells on top of each other. -/
def exTopo : GridTopo := { nc := 3, nf := 2, cellFacepos := [0, 1, 3, 4], cellFaces := [0, 0, 1, 1], faceCells := [0, 1, 2, 1] }

/-- Straight relative permeabilities, water heavy on top. -/
def exEnv : Env := { g := exTopo, fluid := { relperm := fun _ w o => (w, o), mu := (1, 1) }, smin := [0, 0, 0, 0, 0, 0], smax := [1, 1, 1, 1, 1, 1], tol := 1 / 100, maxit := 20, gravflux := [-1, 1], pv := [1, 2, 1], dt := 1 }

theorem exEnv_ok : GravityData exEnv := by
  refine ⟨GridTopo.ValidB.valid (by decide +kernel), by decide, by decide +kernel, rfl, rfl, rfl, by decide +kernel, by decide +kernel, ⟨by decide +kernel, ?_, ?_, ?_⟩⟩
  · intro c hc s h1 h2
    have e1 : least exEnv c = 0 := (by decide +kernel : ∀ c < 3, least exEnv c = 0) c hc
    have e2 : largest exEnv c = 1 := (by decide +kernel : ∀ c < 3, largest exEnv c = 1) c hc
    rw [e1] at h1; rw [e2] at h2
    exact ⟨by show 0 ≤ s / 1; rw [div_one]; exact h1, by show 0 ≤ (1 - s) / 1; rw [div_one]; linarith⟩
  · decide +kernel
  · decide +kernel

theorem exColumns : Columns exEnv [[0, 1, 2]] := by
  refine ⟨List.Perm.refl _, by decide, ?_⟩
  intro col hm p hp f f' h1 h2
  rw [List.mem_singleton] at hm
  subst hm
  have lt : ∀ {f : Nat} {a b : Int}, exEnv.g.Sides f a b → f < 2 := by
    intro f a b hs
    have := (List.getElem?_eq_some_iff.1 hs.2).1
    change 2 * f + 1 < 4 at this
    omega
  have hf : f < 2 := by rcases h1 with h | h <;> exact lt h
  have hf' : f' < 2 := by rcases h2 with h | h <;> exact lt h
  have hp : p < 2 := by simp at hp; omega
  have key : ∀ p < 2, ∀ f < 2, (exTopo.faceCells[2 * f]? = some (([0, 1, 2].getD p 0 : Nat) : Int) ∧ exTopo.faceCells[2 * f + 1]? = some (([0, 1, 2].getD (p + 1) 0 : Nat) : Int)) ∨
      (exTopo.faceCells[2 * f]? = some (([0, 1, 2].getD (p + 1) 0 : Nat) : Int) ∧ exTopo.faceCells[2 * f + 1]? = some (([0, 1, 2].getD p 0 : Nat) : Int)) → f = p := by decide
  rw [key p hp f hf h1, key p hp f' hf' h2]

example : Saturations exEnv [1, 0, 1 / 2, 1 / 2, 1 / 4, 3 / 4] := ⟨rfl, by decide +kernel, by decide +kernel⟩

/-- Water sinks from the top cell to the bottom cell; the solver converges. -/
example : (match solveGravity exEnv [[0, 1, 2]] [] [0, 0, 0] [1, 0, 1 / 2, 1 / 2, 1 / 4, 3 / 4] with
    | .ok b => decide (b.getD 0 0 < 9 / 10 ∧ 3 / 10 < b.getD 4 0 ∧ |b.getD 0 0 + 2 * b.getD 2 0 + b.getD 4 0 - 9 / 4| < 1 / 20)
    | .error _ => false) = true := by decide +kernel

/-- Two cells with two common faces. -/
def twoFaces : GridTopo := { nc := 2, nf := 2, cellFacepos := [0, 2, 4], cellFaces := [0, 1, 0, 1], faceCells := [0, 1, 0, 1] }

/-- **Several common faces.**  If two cells above each other have two faces in common, only the last one counts. -/
theorem only_last_face : ∃ E : Env, E.g.Valid ∧ E.gravflux = [-1, -2] ∧ E.g.between E.gravflux 0 1 = -3 ∧ columnFlux E [0, 1] = .ok [-2] :=
  ⟨{ exEnv with g := twoFaces, gravflux := [-1, -2] }, GridTopo.ValidB.valid (by decide +kernel), rfl, by decide +kernel, by decide +kernel⟩

/-- **No convergence.**  With one sweep only, the solver throws and nothing is stored. -/
example : solveGravity { exEnv with maxit := 1 } [[0, 1, 2]] [] [0, 0, 0] [1, 0, 1 / 2, 1 / 2, 1 / 4, 3 / 4] = .error .thrown := by decide +kernel

end Opm.GravitySegregation.Props
