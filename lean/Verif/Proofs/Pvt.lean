import Verif.Spec.Pvt
import Mathlib.Tactic.Ring
import Mathlib.Tactic.Linarith
import Mathlib.Tactic.Positivity
import Mathlib.Algebra.Order.Field.Rat
/-! # Proofs about fluid properties: points and batches -/

namespace Opm.Pvt
open Opm Opm.Interp

theorem each_ok {n : Nat} {f : Nat → M Rat} {out : List Rat} (v : Nat → Rat) (hn : n ≤ out.length) (hf : ∀ i, i < n → f i = .ok (v i)) :
    each n f out = .ok ((List.range n).map v ++ out.drop n) := by
  unfold each
  induction n with
  | zero => rfl
  | succ n ih =>
    rw [loop_succ, ih (by omega) (fun i hi => hf i (by omega)), bind_ok, hf n (by omega), bind_ok, wr_ok (by simp; omega)]
    congr 1
    rw [List.set_append_right _ _ (by simp)]
    simp only [List.length_map, List.length_range, Nat.sub_self]
    rw [List.drop_eq_getElem_cons (show n < out.length by omega), List.set_cons_zero, List.range_succ, List.map_append]
    simp

theorem each_eq_ok {n : Nat} {f : Nat → M Rat} {out r : List Rat} (h : each n f out = .ok r) :
    n ≤ out.length ∧ ∃ v : Nat → Rat, (∀ i, i < n → f i = .ok (v i)) ∧ r = (List.range n).map v ++ out.drop n := by
  induction n generalizing r with
  | zero =>
    unfold each at h
    rw [loop_zero] at h
    cases h
    exact ⟨by omega, fun _ => 0, by simp, by simp⟩
  | succ n ih =>
    unfold each at h
    rw [loop_succ] at h
    obtain ⟨s, e, h⟩ := bind_eq_ok.1 h
    obtain ⟨hn, v, hv, hs⟩ := ih e
    obtain ⟨x, ex, h⟩ := bind_eq_ok.1 h
    have hl : n < s.length := by
      by_contra hn
      rw [wr_ub (by omega)] at h
      cases h
    have hn' : n + 1 ≤ out.length := by rw [hs] at hl; simp at hl; omega
    have hall : ∀ i, i < n + 1 → f i = .ok (if i = n then x else v i) := by
      intro i hi
      split
      · rename_i hin; rw [hin]; exact ex
      · exact hv i (by omega)
    refine ⟨hn', _, hall, ?_⟩
    have := each_ok _ hn' hall
    unfold each at this
    rw [loop_succ, e, bind_ok, ex, bind_ok, h] at this
    exact Except.ok.inj this

theorem each2_ok {n : Nat} {f : Nat → M (Rat × Rat)} {a b : List Rat} (v : Nat → Rat × Rat) (ha : n ≤ a.length) (hb : n ≤ b.length) (hf : ∀ i, i < n → f i = .ok (v i)) :
    each2 n f (a, b) = .ok ((List.range n).map (fun i => (v i).1) ++ a.drop n, (List.range n).map (fun i => (v i).2) ++ b.drop n) := by
  unfold each2
  induction n with
  | zero => rfl
  | succ n ih =>
    rw [loop_succ, ih (by omega) (by omega) (fun i hi => hf i (by omega)), bind_ok, hf n (by omega), bind_ok, wr_ok (by simp; omega), bind_ok, wr_ok (by simp; omega), bind_ok]
    congr 1
    rw [List.set_append_right _ _ (by simp), List.set_append_right _ _ (by simp)]
    simp only [List.length_map, List.length_range, Nat.sub_self]
    rw [List.drop_eq_getElem_cons (show n < a.length by omega), List.set_cons_zero, List.drop_eq_getElem_cons (show n < b.length by omega), List.set_cons_zero, List.range_succ, List.map_append, List.map_append]
    simp

theorem each2_eq_ok {n : Nat} {f : Nat → M (Rat × Rat)} {a b : List Rat} {r : List Rat × List Rat} (h : each2 n f (a, b) = .ok r) :
    n ≤ a.length ∧ n ≤ b.length ∧ ∃ v : Nat → Rat × Rat, (∀ i, i < n → f i = .ok (v i)) ∧
      r = ((List.range n).map (fun i => (v i).1) ++ a.drop n, (List.range n).map (fun i => (v i).2) ++ b.drop n) := by
  induction n generalizing r with
  | zero =>
    unfold each2 at h
    rw [loop_zero] at h
    cases h
    exact ⟨by omega, by omega, fun _ => 0, by simp, by simp⟩
  | succ n ih =>
    unfold each2 at h
    rw [loop_succ] at h
    obtain ⟨s, e, h⟩ := bind_eq_ok.1 h
    obtain ⟨hn, hm, v, hv, hs⟩ := ih e
    obtain ⟨x, ex, h⟩ := bind_eq_ok.1 h
    obtain ⟨c, ec, h'⟩ := bind_eq_ok.1 h
    obtain ⟨d, ed, h''⟩ := bind_eq_ok.1 h'
    have hl : n < s.1.length := by
      by_contra hn
      rw [wr_ub (by omega)] at ec
      cases ec
    have hl2 : n < s.2.length := by
      by_contra hn
      rw [wr_ub (by omega)] at ed
      cases ed
    have hn' : n + 1 ≤ a.length := by rw [hs] at hl; simp at hl; omega
    have hm' : n + 1 ≤ b.length := by rw [hs] at hl2; simp at hl2; omega
    have hall : ∀ i, i < n + 1 → f i = .ok (if i = n then x else v i) := by
      intro i hi
      split
      · rename_i hin; rw [hin]; exact ex
      · exact hv i (by omega)
    refine ⟨hn', hm', _, hall, ?_⟩
    have := each2_ok _ hn' hm' hall
    unfold each2 at this
    rw [loop_succ, e, bind_ok, ex, bind_ok, ec, bind_ok, ed, bind_ok] at this
    rw [h''] at this
    exact Except.ok.inj this

theorem each_congr {n : Nat} {f g : Nat → M Rat} {out : List Rat} (h : ∀ i, i < n → f i = g i) : each n f out = each n g out := by
  unfold each
  exact loop_congr (fun i s hi => by rw [h i hi])

theorem each2_congr {n : Nat} {f g : Nat → M (Rat × Rat)} {out : List Rat × List Rat} (h : ∀ i, i < n → f i = g i) : each2 n f out = each2 n g out := by
  unfold each2
  exact loop_congr (fun i s hi => by rw [h i hi])

/-! ### Functions of one point -/

def ConstCompr.b1 (c : ConstCompr) (p : Rat) : M Rat := if c.comp ≠ 0 then fdiv c.refB (poly (c.comp * (p - c.refPress))) else .ok c.refB
def ConstCompr.mu1 (c : ConstCompr) (p : Rat) : M Rat := if c.viscComp ≠ 0 then fdiv c.visc (poly (-c.viscComp * (p - c.refPress))) else .ok c.visc
def ConstCompr.db1 (c : ConstCompr) (p : Rat) : M (Rat × Rat) :=
  if c.comp ≠ 0 then do
    let b ← fdiv c.refB (poly (c.comp * (p - c.refPress)))
    let q ← fdiv (-c.refB) (poly (c.comp * (p - c.refPress)) * poly (c.comp * (p - c.refPress)))
    .ok (b, q * (1 + c.comp * (p - c.refPress)) * c.comp)
  else .ok (c.refB, 0)
def Dead.db1 (d : Dead) (p : Rat) : M (Rat × Rat) := do
  let b ← d.bAt p
  let s ← d.oneOverB.derivative p
  .ok (b, -b * b * s)

def Fluid.mu1 (f : Fluid) (cfg : Config) (vol : Nat → M Rat) (p : Rat) : M Rat :=
  match f with
  | .dead d => d.visc.eval p
  | .const c => c.mu1 p
  | .oil t => t.oil cfg p vol 2 false
  | .gas t => t.gas cfg p vol 2 false

def Fluid.b1 (f : Fluid) (cfg : Config) (vol : Nat → M Rat) (p : Rat) : M Rat :=
  match f with
  | .dead d => d.bAt p
  | .const c => c.b1 p
  | .oil t => t.oilB cfg p vol
  | .gas t => t.gasB cfg p vol

def Fluid.r1 (f : Fluid) (cfg : Config) (vol : Nat → M Rat) (p : Rat) : M Rat :=
  match f with
  | .dead _ => .ok 0
  | .const _ => .ok 0
  | .oil t => t.oilR cfg p vol
  | .gas t => t.gasR cfg p vol

def Fluid.db1 (f : Fluid) (cfg : Config) (vol : Nat → M Rat) (p : Rat) : M (Rat × Rat) :=
  match f with
  | .dead d => d.db1 p
  | .const c => c.db1 p
  | .oil t => t.oilBDeriv cfg p vol
  | .gas t => t.gasBDeriv cfg p vol

def Fluid.dr1 (f : Fluid) (cfg : Config) (vol : Nat → M Rat) (p : Rat) : M (Rat × Rat) :=
  match f with
  | .dead _ => .ok (0, 0)
  | .const _ => .ok (0, 0)
  | .oil t => t.oilRDeriv cfg p vol
  | .gas t => t.gasRDeriv cfg p vol

variable {f : Fluid} {cfg : Config} {n : Nat} {p z : List Rat}

theorem mu_each {out : List Rat} (hp : n ≤ p.length) : f.mu cfg n p z out = each n (fun i => f.mu1 cfg (volOf cfg z i) (p.getD i 0)) out := by
  have hr : ∀ i, i < n → rd p i = .ok (p.getD i 0) := fun i hi => rd_of_getElem? (by rw [List.getD_eq_getElem?_getD, List.getElem?_eq_getElem (show i < p.length by omega)]; rfl)
  unfold Fluid.mu
  cases f with
  | dead d => exact each_congr (fun i hi => by rw [hr i hi, bind_ok]; rfl)
  | const c =>
    dsimp only
    unfold ConstCompr.mu fill
    split
    · rename_i h; exact each_congr (fun i hi => by rw [hr i hi, bind_ok]; unfold Fluid.mu1 ConstCompr.mu1; simp only; rw [if_pos h])
    · rename_i h; exact each_congr (fun i hi => by unfold Fluid.mu1 ConstCompr.mu1; simp only; rw [if_neg h])
  | oil t => exact each_congr (fun i hi => by rw [hr i hi, bind_ok]; rfl)
  | gas t => exact each_congr (fun i hi => by rw [hr i hi, bind_ok]; rfl)

theorem b_each {out : List Rat} (hp : n ≤ p.length) : f.B cfg n p z out = each n (fun i => f.b1 cfg (volOf cfg z i) (p.getD i 0)) out := by
  have hr : ∀ i, i < n → rd p i = .ok (p.getD i 0) := fun i hi => rd_of_getElem? (by rw [List.getD_eq_getElem?_getD, List.getElem?_eq_getElem (show i < p.length by omega)]; rfl)
  unfold Fluid.B
  cases f with
  | dead d => exact each_congr (fun i hi => by rw [hr i hi, bind_ok]; rfl)
  | const c =>
    dsimp only
    unfold ConstCompr.B fill
    split
    · rename_i h; exact each_congr (fun i hi => by rw [hr i hi, bind_ok]; unfold Fluid.b1 ConstCompr.b1; simp only; rw [if_pos h])
    · rename_i h; exact each_congr (fun i hi => by unfold Fluid.b1 ConstCompr.b1; simp only; rw [if_neg h])
  | oil t => exact each_congr (fun i hi => by rw [hr i hi, bind_ok]; rfl)
  | gas t => exact each_congr (fun i hi => by rw [hr i hi, bind_ok]; rfl)

theorem r_each {out : List Rat} (hp : n ≤ p.length) : f.R cfg n p z out = each n (fun i => f.r1 cfg (volOf cfg z i) (p.getD i 0)) out := by
  have hr : ∀ i, i < n → rd p i = .ok (p.getD i 0) := fun i hi => rd_of_getElem? (by rw [List.getD_eq_getElem?_getD, List.getElem?_eq_getElem (show i < p.length by omega)]; rfl)
  unfold Fluid.R
  cases f with
  | dead d => rfl
  | const c => rfl
  | oil t => exact each_congr (fun i hi => by rw [hr i hi, bind_ok]; rfl)
  | gas t => exact each_congr (fun i hi => by rw [hr i hi, bind_ok]; rfl)

theorem fill_ok (v : Rat) {out : List Rat} (h : n ≤ out.length) : fill n v out = .ok ((List.range n).map (fun _ => v) ++ out.drop n) := each_ok (fun _ => v) h (fun _ _ => rfl)

theorem dr_each {a b : List Rat} (hp : n ≤ p.length) (ha : n ≤ a.length) (hb : n ≤ b.length) :
    f.dRdp cfg n p z (a, b) = each2 n (fun i => f.dr1 cfg (volOf cfg z i) (p.getD i 0)) (a, b) := by
  have hr : ∀ i, i < n → rd p i = .ok (p.getD i 0) := fun i hi => rd_of_getElem? (by rw [List.getD_eq_getElem?_getD, List.getElem?_eq_getElem (show i < p.length by omega)]; rfl)
  unfold Fluid.dRdp
  cases f with
  | dead d =>
    dsimp only
    rw [fill_ok _ ha, bind_ok, fill_ok _ hb, bind_ok]
    exact (each2_ok (fun _ => (0, 0)) ha hb (fun _ _ => rfl)).symm
  | const c =>
    dsimp only
    rw [fill_ok _ ha, bind_ok, fill_ok _ hb, bind_ok]
    exact (each2_ok (fun _ => (0, 0)) ha hb (fun _ _ => rfl)).symm
  | oil t => exact each2_congr (fun i hi => by rw [hr i hi, bind_ok]; rfl)
  | gas t => exact each2_congr (fun i hi => by rw [hr i hi, bind_ok]; rfl)

/-- A loop followed by one which uses its results. -/
theorem each_then {g : Nat → M Rat} {k : Nat → Rat → M Rat} {a r : List Rat × List Rat} :
    (∃ s, each n g a.1 = .ok s ∧ ∃ t, each n (fun i => do let x ← rd s i; k i x) a.2 = .ok t ∧ r = (s, t)) ↔
      each2 n (fun i => do let x ← g i; let y ← k i x; .ok (x, y)) a = .ok r := by
  obtain ⟨a1, a2⟩ := a
  constructor
  · rintro ⟨s, e1, t, e2, rfl⟩
    obtain ⟨h1, v, hv, rfl⟩ := each_eq_ok e1
    obtain ⟨h2, w, hw, rfl⟩ := each_eq_ok e2
    refine each2_ok (fun i => (v i, w i)) h1 h2 (fun i hi => ?_)
    have := hw i hi
    rw [rd_of_getElem? (show ((List.range n).map v ++ a1.drop n)[i]? = some (v i) by rw [List.getElem?_append_left (by simpa using hi)]; simp [hi]), bind_ok] at this
    rw [hv i hi, bind_ok, this, bind_ok]
  · intro h
    obtain ⟨h1, h2, v, hv, rfl⟩ := each2_eq_ok h
    refine ⟨_, each_ok (fun i => (v i).1) h1 (fun i hi => ?_), _, each_ok (fun i => (v i).2) h2 (fun i hi => ?_), rfl⟩
    · obtain ⟨x, e, h⟩ := bind_eq_ok.1 (hv i hi)
      obtain ⟨y, e', h⟩ := bind_eq_ok.1 h
      have := Except.ok.inj h
      rw [e, ← this]
    · obtain ⟨x, e, h⟩ := bind_eq_ok.1 (hv i hi)
      obtain ⟨y, e', h⟩ := bind_eq_ok.1 h
      have := Except.ok.inj h
      rw [rd_of_getElem? (show ((List.range n).map (fun i => (v i).1) ++ a1.drop n)[i]? = some (v i).1 by rw [List.getElem?_append_left (by simpa using hi)]; simp [hi]), bind_ok, ← this]
      exact e'

theorem db_each {a b : List Rat} (hp : n ≤ p.length) (ha : n ≤ a.length) (hb : n ≤ b.length) (r : List Rat × List Rat) :
    f.dBdp cfg n p z (a, b) = .ok r ↔ each2 n (fun i => f.db1 cfg (volOf cfg z i) (p.getD i 0)) (a, b) = .ok r := by
  have hr : ∀ i, i < n → rd p i = .ok (p.getD i 0) := fun i hi => rd_of_getElem? (by rw [List.getD_eq_getElem?_getD, List.getElem?_eq_getElem (show i < p.length by omega)]; rfl)
  unfold Fluid.dBdp
  cases f with
  | dead d =>
    dsimp only
    unfold Dead.dBdp Dead.B
    rw [each_congr (g := fun i => d.bAt (p.getD i 0)) (fun i hi => by rw [hr i hi, bind_ok])]
    have hk : each2 n (fun i => (Fluid.dead d).db1 cfg (volOf cfg z i) (p.getD i 0)) (a, b) =
        each2 n (fun i => do let x ← d.bAt (p.getD i 0); let y ← (do let s ← d.oneOverB.derivative (p.getD i 0); .ok (-x * x * s)); .ok (x, y)) (a, b) :=
      each2_congr (fun i hi => by
        show d.db1 _ = _
        unfold Dead.db1
        cases d.bAt (p.getD i 0) with
        | error _ => rfl
        | ok x =>
          rw [bind_ok, bind_ok]
          cases d.oneOverB.derivative (p.getD i 0) with
          | error _ => rfl
          | ok y => rfl)
    rw [hk, ← each_then (g := fun i => d.bAt (p.getD i 0)) (k := fun i x => do let s ← d.oneOverB.derivative (p.getD i 0); .ok (-x * x * s)) (r := r) (a := (a, b))]
    constructor
    · intro h
      obtain ⟨s, e, h⟩ := bind_eq_ok.1 h
      obtain ⟨t, e', h⟩ := bind_eq_ok.1 h
      refine ⟨s, e, t, ?_, (Except.ok.inj h).symm⟩
      rw [← e']
      exact each_congr (fun i hi => by cases rd s i with | error _ => rfl | ok y => rw [bind_ok, bind_ok, hr i hi, bind_ok])
    · rintro ⟨s, e, t, e', rfl⟩
      rw [e, bind_ok]
      have : each n (fun i => do let bg ← rd s i; let x ← rd p i; let q ← d.oneOverB.derivative x; Except.ok (-bg * bg * q)) b = .ok t := by
        rw [← e']
        exact each_congr (fun i hi => by cases rd s i with | error _ => rfl | ok y => rw [bind_ok, bind_ok, hr i hi, bind_ok])
      rw [this, bind_ok]
  | const c =>
    dsimp only
    unfold ConstCompr.dBdp
    split
    · rename_i h
      rw [each2_congr (fun i hi => ?_)]
      rw [hr i hi, bind_ok]
      unfold Fluid.db1 ConstCompr.db1
      simp only
      rw [if_pos h]
    · rename_i h
      rw [fill_ok _ ha, bind_ok, fill_ok _ hb, bind_ok]
      rw [each2_ok (fun _ => (c.refB, 0)) ha hb (fun i _ => by unfold Fluid.db1 ConstCompr.db1; simp only; rw [if_neg h])]
  | oil t => dsimp only; rw [each2_congr (g := fun i => (Fluid.oil t).db1 cfg (volOf cfg z i) (p.getD i 0)) (fun i hi => by rw [hr i hi, bind_ok]; rfl)]
  | gas t => dsimp only; rw [each2_congr (g := fun i => (Fluid.gas t).db1 cfg (volOf cfg z i) (p.getD i 0)) (fun i hi => by rw [hr i hi, bind_ok]; rfl)]

end Opm.Pvt
