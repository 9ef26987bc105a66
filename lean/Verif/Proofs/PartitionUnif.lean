import Verif.Proofs.PartitionBasic
import Verif.Spec.Partition
import Mathlib.Algebra.BigOperators.Group.List.Basic
import Mathlib.Tactic.Ring
/-! # Uniform Cartesian partitioning -/

namespace Opm.Partition
open Opm

/-- First entity of bin `b`. -/
def lo (L R b : Nat) : Nat := b * L + min b R

/-- The bin of entity `i`, computed without negative numbers. -/
def bal (size nbins i : Nat) : Nat :=
  if i < (size % nbins) * (size / nbins + 1) then i / (size / nbins + 1)
  else (i - size % nbins) / (size / nbins)

theorem loadBal1_ok {size nbins i : Nat} (h1 : 1 ≤ nbins) (h2 : nbins ≤ size) :
    loadBal1 size nbins i = .ok (bal size nbins i) := by
  have hL : 1 ≤ size / nbins := Nat.div_pos h2 h1
  unfold loadBal1 bal
  rw [if_neg (by omega)]
  simp only
  rw [if_neg (by omega)]
  generalize size / nbins = L at *
  generalize size % nbins = R at *
  congr 1
  have e1 : (i : Int).tdiv ((L : Int) + 1) = ((i / (L + 1) : Nat) : Int) := by
    rw [Int.tdiv_eq_ediv_of_nonneg (by omega)]; rfl
  rw [e1]
  by_cases h : i < R * (L + 1)
  · rw [if_pos h]
    have hb : i / (L + 1) < R := Nat.div_lt_of_lt_mul (by rw [Nat.mul_comm]; exact h)
    have hdm := Nat.div_add_mod i (L + 1)
    have hm := Nat.mod_lt i (show 0 < L + 1 by omega)
    have : ((i : Int) - (R : Int)).tdiv (L : Int) ≤ ((i / (L + 1) : Nat) : Int) := by
      rcases Nat.lt_or_ge i R with h3 | h3
      · have h4 : ((i : Int) - (R : Int)).tdiv (L : Int) ≤ 0 :=
          by
          rw [show (i : Int) - R = -((R : Int) - i) by omega, Int.neg_tdiv,
            Int.tdiv_eq_ediv_of_nonneg (by omega)]
          have : 0 ≤ ((R : Int) - i) / L := Int.ediv_nonneg (by omega) (by omega)
          omega
        exact Int.le_trans h4 (Int.natCast_nonneg _)
      · rw [Int.tdiv_eq_ediv_of_nonneg (by omega), show (i : Int) - R = ((i - R : Nat) : Int) by omega]
        have : (i - R) / L ≤ i / (L + 1) := by
          rw [← Nat.lt_succ_iff]
          apply Nat.div_lt_of_lt_mul
          generalize i / (L + 1) = b at *
          have : (L + 1) * b = L * b + b := by ring
          rw [Nat.mul_succ]; omega
        exact_mod_cast this
    rw [Int.max_eq_left this]; exact Int.toNat_natCast _
  · rw [if_neg h]
    have hRi : R ≤ i := by
      have : R * (L + 1) = R * L + R := by ring
      omega
    have e2 : ((i : Int) - (R : Int)).tdiv (L : Int) = (((i - R) / L : Nat) : Int) := by
      rw [Int.tdiv_eq_ediv_of_nonneg (by omega), show (i : Int) - R = ((i - R : Nat) : Int) by omega]; rfl
    rw [e2]
    have : i / (L + 1) ≤ (i - R) / L := by
      have hdm := Nat.div_add_mod (i - R) L
      have hm := Nat.mod_lt (i - R) (show 0 < L by omega)
      have hR : R ≤ (i - R) / L := by
        rw [Nat.le_div_iff_mul_le (by omega)]
        have : R * (L + 1) = R * L + R := by ring
        omega
      rw [← Nat.lt_succ_iff]
      apply Nat.div_lt_of_lt_mul
      generalize (i - R) / L = c at *
      have : (L + 1) * (c + 1) = L * c + L + c + 1 := by ring
      show i < (L + 1) * (c + 1)
      omega
    rw [Int.max_eq_right (by exact_mod_cast this)]; exact Int.toNat_natCast _

theorem bal_iff {size nbins i b : Nat} (h1 : 1 ≤ nbins) (h2 : nbins ≤ size) :
    bal size nbins i = b ↔ lo (size / nbins) (size % nbins) b ≤ i ∧ i < lo (size / nbins) (size % nbins) (b + 1) := by
  have hL : 1 ≤ size / nbins := Nat.div_pos h2 h1
  unfold bal lo
  generalize size / nbins = L at *
  generalize size % nbins = R at *
  by_cases h : i < R * (L + 1)
  · rw [if_pos h, Nat.div_eq_iff (by omega)]
    have e0 : (b + 1) * L = b * L + L := by ring
    have e1 : b * (L + 1) = b * L + b := by ring
    have e2 : R * (L + 1) = R * L + R := by ring
    rcases Nat.lt_or_ge b R with hb | hb
    · rw [Nat.min_eq_left (by omega), Nat.min_eq_left (by omega)]
      omega
    · have : R * L ≤ b * L := Nat.mul_le_mul_right _ hb
      rw [Nat.min_eq_right hb]
      omega
  · rw [if_neg h, Nat.div_eq_iff (by omega)]
    have e0 : (b + 1) * L = b * L + L := by ring
    have e2 : R * (L + 1) = R * L + R := by ring
    rcases Nat.lt_or_ge b R with hb | hb
    · have : (b + 1) * L ≤ R * L := Nat.mul_le_mul_right _ hb
      rw [Nat.min_eq_left (by omega), Nat.min_eq_left (by omega)]
      omega
    · have : R * L ≤ b * L := Nat.mul_le_mul_right _ hb
      rw [Nat.min_eq_right hb, Nat.min_eq_right (by omega)]
      omega

theorem countP_interval (n a e : Nat) (h : a ≤ e) :
    (List.range n).countP (fun i => decide (a ≤ i ∧ i < e)) = min n e - min n a := by
  induction n with
  | zero => simp
  | succ n ih =>
    rw [List.range_succ, List.countP_append, ih, List.countP_singleton]
    by_cases h1 : a ≤ n ∧ n < e
    · simp only [h1, decide_true, if_true, and_self]; omega
    · have : decide (a ≤ n ∧ n < e) = false := by simpa using h1
      rw [this]
      simp only [Bool.false_eq_true, if_false]
      omega

theorem lo_total {size nbins : Nat} (h1 : 1 ≤ nbins) : lo (size / nbins) (size % nbins) nbins = size := by
  unfold lo
  rw [Nat.min_eq_right (Nat.le_of_lt (Nat.mod_lt _ h1))]
  exact Nat.div_add_mod size nbins

theorem lo_mono (L R : Nat) {a b : Nat} (h : a ≤ b) : lo L R a ≤ lo L R b := by
  unfold lo
  have := Nat.mul_le_mul_right L h
  omega

theorem bal_balanced {size nbins : Nat} (h1 : 1 ≤ nbins) (h2 : nbins ≤ size) :
    Balanced size nbins (bal size nbins) where
  range := by
    intro i hi
    by_contra hc
    have := ((bal_iff h1 h2).1 (rfl : bal size nbins i = _)).1
    have h3 := lo_mono (size / nbins) (size % nbins) (show nbins ≤ bal size nbins i by omega)
    rw [lo_total h1] at h3
    omega
  mono := by
    intro i j hij hj
    by_contra hc
    have hi := ((bal_iff h1 h2).1 (rfl : bal size nbins i = _)).1
    have hj := ((bal_iff h1 h2).1 (rfl : bal size nbins j = _)).2
    have := lo_mono (size / nbins) (size % nbins) (show bal size nbins j + 1 ≤ bal size nbins i by omega)
    omega
  count := by
    intro b hb
    have e : (List.range size).countP (fun i => bal size nbins i = b) =
        (List.range size).countP (fun i => decide (lo (size / nbins) (size % nbins) b ≤ i ∧
          i < lo (size / nbins) (size % nbins) (b + 1))) := by
      congr 1
      funext i
      rw [decide_eq_decide]
      exact bal_iff h1 h2
    have hm := lo_mono (size / nbins) (size % nbins) (show b ≤ b + 1 by omega)
    have ht := lo_mono (size / nbins) (size % nbins) (show b + 1 ≤ nbins from hb)
    rw [lo_total h1] at ht
    rw [e, countP_interval _ _ _ hm, Nat.min_eq_right ht, Nat.min_eq_right (by omega)]
    clear e hm ht
    unfold lo
    generalize size / nbins = L
    generalize size % nbins = R
    have : (b + 1) * L = b * L + L := by ring
    rw [this]
    generalize b * L = x
    omega

/-- The Cartesian indices of `x`. -/
def digs : List Nat → Nat → List Nat
  | [], _ => []
  | d :: ds, x => x % d :: digs ds (x / d)

theorem digs_digit (ds : List Nat) (i x : Nat) (h : i < ds.length) : (digs ds x)[i]? = some (digit ds i x) := by
  induction ds generalizing i x with
  | nil => simp at h
  | cons d ds ih =>
    cases i with
    | zero => simp [digs, digit]
    | succ i =>
      simp only [digs, List.getElem?_cons_succ]
      rw [ih i _ (by simpa using h)]
      simp [digit, Nat.div_div_eq_div_mul]

theorem coordIdx_ok (ds : List Nat) (x : Nat) (hd : ∀ d ∈ ds, 1 ≤ d) (hx : x < ds.prod) :
    coordIdx ds x = .ok (digs ds x) := by
  induction ds generalizing x with
  | nil =>
    have : x = 0 := by simpa using hx
    subst this; rfl
  | cons d ds ih =>
    have hd0 := hd d (List.mem_cons_self ..)
    unfold coordIdx
    rw [if_neg (by omega), ih (x / d) (fun e he => hd e (List.mem_cons_of_mem _ he)) (by
      rw [List.prod_cons] at hx
      exact Nat.div_lt_of_lt_mul hx), bind_ok]
    rfl

theorem linIdx_ok (d : Nat) (ds ys : List Nat) (h : List.Forall₂ (fun y d => y < d) ys (d :: ds)) :
    ∃ B, linIdx (d :: ds) ys = .ok B ∧ B < (d :: ds).prod ∧ digs (d :: ds) B = ys := by
  induction ds generalizing d ys with
  | nil =>
    cases h with
    | cons h1 h2 =>
      cases h2
      rename_i y
      exact ⟨y, rfl, by simpa using h1, by simp [digs, Nat.mod_eq_of_lt h1]⟩
  | cons e ds ih =>
    cases h with
    | cons h1 h2 =>
      rename_i y ys
      obtain ⟨B, hB, hlt, hdig⟩ := ih e ys h2
      refine ⟨y + d * B, ?_, ?_, ?_⟩
      · show linIdx (d :: e :: ds) (y :: ys) = _
        cases ys with
        | nil => cases h2
        | cons z zs =>
          unfold linIdx
          rw [hB, bind_ok]
      · rw [List.prod_cons]
        have : d * (B + 1) ≤ d * (e :: ds).prod := Nat.mul_le_mul_left _ hlt
        rw [Nat.mul_succ] at this
        omega
      · have hd : 0 < d := by omega
        simp only [digs]
        rw [Nat.add_mul_mod_self_left, Nat.mod_eq_of_lt h1, Nat.add_mul_div_left _ _ hd, Nat.div_eq_of_lt h1, Nat.zero_add]
        rw [← hdig]; rfl

theorem digs_lt (ds : List Nat) (x : Nat) (hd : ∀ d ∈ ds, 1 ≤ d) : List.Forall₂ (fun y d => y < d) (digs ds x) ds := by
  induction ds generalizing x with
  | nil => exact .nil
  | cons d ds ih =>
    exact .cons (Nat.mod_lt _ (hd d (List.mem_cons_self ..))) (ih _ (fun e he => hd e (List.mem_cons_of_mem _ he)))

theorem loadBal_ok (fs cs xs : List Nat) (h : List.Forall₂ (fun c f => 1 ≤ c ∧ c ≤ f) cs fs)
    (hx : List.Forall₂ (fun y d => y < d) xs fs) :
    ∃ ys, loadBal fs cs xs = .ok ys ∧ List.Forall₂ (fun y d => y < d) ys cs ∧
      ∀ i F C x : Nat, fs[i]? = some F → cs[i]? = some C → xs[i]? = some x → ys[i]? = some (bal F C x) := by
  induction h generalizing xs with
  | nil => cases hx; exact ⟨[], rfl, .nil, by intro i F C x h; simp at h⟩
  | cons h1 h2 ih =>
    rename_i c f cs fs
    cases hx with
    | cons hx1 hx2 =>
      rename_i x xs
      obtain ⟨ys, e, h3, h4⟩ := ih xs hx2
      refine ⟨bal f c x :: ys, ?_, .cons ((bal_balanced h1.1 h1.2).range x hx1) h3, ?_⟩
      · unfold loadBal
        rw [loadBal1_ok h1.1 h1.2, bind_ok, e, bind_ok]
      · intro i F C y hF hC hy
        cases i with
        | zero => simp at hF hC hy ⊢; subst hF; subst hC; subst hy; rfl
        | succ i => simpa using h4 i F C y (by simpa using hF) (by simpa using hC) (by simpa using hy)

end Opm.Partition
