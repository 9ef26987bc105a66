import Verif.Spec.DGBasis
import Verif.Proofs.Hybsys
import Mathlib.Tactic.Ring
import Mathlib.Tactic.Linarith
/-!
# Lemmas about the bases of the discontinuous Galerkin method
-/

namespace Opm.DGBasis
open Opm Finset UniquePoints
open _root_.Opm.Hybsys (Upd loop_upd loop_acc)

theorem cases_of {b : Basis} {cell : Nat} (h : Usable b cell) : (b.degree = 0 ∨ b.degree = 1) ∧ (b.dim = 1 ∨ b.dim = 2 ∨ b.dim = 3) := by
  have := h.made
  have := h.dims
  simp only [make] at *
  split at * <;> simp_all
  omega

theorem numBasis_eq {b : Basis} {cell : Nat} (h : Usable b cell) : numBasis b = .ok (count b.kind b.degree b.dim) := by
  obtain ⟨hd, hn⟩ := cases_of h
  obtain ⟨k, n, d, ce⟩ := b
  dsimp only at hd hn ⊢
  rcases hd with rfl | rfl <;> rcases hn with rfl | rfl | rfl <;> cases k <;> simp [numBasis, count]

theorem count_pos (k : Kind) (d : Int) (n : Nat) : 0 < count k d n := by
  unfold count
  split <;> simp

theorem rdG {a : List Rat} {i : Nat} (h : i < a.length) : rd a i = .ok (a.getD i 0) := by
  rw [rd_ok h]
  simp [h]

theorem fill_ok {a : List Rat} {n : Nat} (h : n ≤ a.length) (v : Rat) : ∃ b, fill a n v = .ok b ∧ Upd a 0 n (fun _ => v) b :=
  loop_upd 0 (fun _ => v) (by omega) (fun i t _ _ _ => by rw [Nat.zero_add])

/-- The factor of the model is the one of the definition. -/
theorem factor_eq (n dd ix : Nat) (x c : Rat) : factor x c (side n dd ix) = if ix.testBit (n - 1 - dd) then 1 / 2 + (x - c) else 1 / 2 - (x - c) := by
  have e : n - dd - 1 = n - 1 - dd := by omega
  unfold factor side
  rw [Nat.testBit_eq_decide_div_mod_eq, e]
  rcases Nat.mod_two_eq_zero_or_one (ix / 2 ^ (n - 1 - dd)) with q | q <;> rw [q] <;> simp <;> ring

theorem factorDer_eq (n dd ix : Nat) : factorDer (side n dd ix) = if ix.testBit (n - 1 - dd) then 1 else -1 := by
  have e : n - dd - 1 = n - 1 - dd := by omega
  unfold factorDer side
  rw [Nat.testBit_eq_decide_div_mod_eq, e]
  rcases Nat.mod_two_eq_zero_or_one (ix / 2 ^ (n - 1 - dd)) with q | q <;> rw [q] <;> simp

/-- What `eval` writes. -/
theorem eval_ok {b : Basis} {cell : Nat} (h : Usable b cell) {x f : List Rat} (hx : b.dim ≤ x.length) (hf : count b.kind b.degree b.dim ≤ f.length) :
    ∃ g, eval b cell x f = .ok g ∧ Upd f 0 (count b.kind b.degree b.dim) (fun ix => poly b.kind b.degree b.dim ix (rel b cell x)) g := by
  obtain ⟨hd, hn⟩ := cases_of h
  have hnb := numBasis_eq h
  have hc := h.cell
  unfold eval
  have hzero : b.degree = 0 → ∃ g, wr f 0 (1 : Rat) = .ok g ∧ Upd f 0 (count b.kind b.degree b.dim) (fun ix => poly b.kind b.degree b.dim ix (rel b cell x)) g := by
    intro e
    have hl : 0 < f.length := lt_of_lt_of_le (count_pos _ _ _) hf
    have e1 : count b.kind b.degree b.dim = 1 := by rw [e]; rfl
    rw [e1, wr_ok hl]
    refine ⟨_, rfl, by simp, fun i hi => ?_, fun k hk => ?_⟩
    · obtain rfl : i = 0 := by omega
      rw [getD_set' hl, if_pos (by omega)]
      have : poly b.kind b.degree b.dim 0 (rel b cell x) = 1 := by rw [e]; rfl
      exact this.symm
    · rw [getD_set' hl, if_neg (fun q => hk 0 (by omega) (by omega))]
  cases hk : b.kind with
  | totalDegree =>
    dsimp only
    unfold evalTotal
    rcases hd with e | e
    · rw [if_neg (by rw [e]; decide), if_pos e]
      have := hzero e
      rw [hk] at this
      exact this
    · rw [if_pos e]
      rw [hk] at hf
      rw [e] at hf ⊢
      have hcount : count .totalDegree 1 b.dim = b.dim + 1 := rfl
      rw [hcount] at hf ⊢
      obtain ⟨g, eg, l, p, q⟩ := loop_upd (n := b.dim) (a := f) (f := fun ix f => do
        let xi ← rd x ix
        let ci ← rd b.centroids (b.dim * cell + ix)
        wr f (1 + ix) (xi - ci)) 1 (fun ix => rel b cell x ix) (by omega) (fun i t hi _ _ => by
          rw [rdG (a := x) (by omega), bind_ok, rdG (a := b.centroids) (by omega), bind_ok]
          rfl)
      rw [eg, bind_ok, wr_ok (by omega)]
      refine ⟨_, rfl, by simpa using l, fun i hi => ?_, fun k hk => ?_⟩
      · rw [getD_set' (by omega)]
        cases i with
        | zero => rfl
        | succ i =>
          rw [if_neg (by omega)]
          have := p i (by omega)
          dsimp only at this
          rw [show 0 + (i + 1) = 1 + i by omega, this]
          rfl
      · rw [getD_set' (by omega), if_neg (fun e => hk 0 (by omega) (by omega))]
        exact q k (fun i hi e => hk (i + 1) (by omega) (by omega))
  | multilin =>
    dsimp only
    unfold evalMultilin
    rw [hnb, bind_ok]
    rcases hd with e | e
    · rw [if_pos e]
      have := hzero e
      rw [hk] at this
      exact this
    · rw [if_neg (by rw [e]; decide), if_pos e]
      obtain ⟨f1, e1, l1, p1, q1⟩ := fill_ok hf 1
      rw [e1, bind_ok]
      obtain ⟨g, eg, pg⟩ := loop_inv (n := b.dim) (s := f1) (f := fun dd f => do
          let xd ← rd x dd
          let cd ← rd b.centroids (b.dim * cell + dd)
          loop (count b.kind b.degree b.dim) (fun ix f => do
            let v ← rd f ix
            wr f ix (v * factor xd cd (side b.dim dd ix))) f)
        (fun m t => Upd f 0 (count b.kind b.degree b.dim)
          (fun ix => ∏ d ∈ range m, if ix.testBit (b.dim - 1 - d) then 1 / 2 + rel b cell x d else 1 / 2 - rel b cell x d) t)
        ⟨l1, fun i hi => by rw [p1 i hi]; simp, q1⟩ (by
          rintro m t hm ⟨lt, pt, qt⟩
          rw [rdG (a := x) (by omega), bind_ok, rdG (a := b.centroids) (by omega), bind_ok]
          obtain ⟨t', e', l', p', q'⟩ := loop_upd (n := count b.kind b.degree b.dim) (a := t) (f := fun ix f => do
            let v ← rd f ix
            wr f ix (v * factor (x.getD m 0) (b.centroids.getD (b.dim * cell + m) 0) (side b.dim m ix))) 0
            (fun ix => t.getD ix 0 * factor (x.getD m 0) (b.centroids.getD (b.dim * cell + m) 0) (side b.dim m ix)) (by omega) (fun i u hi hu hv => by
              rw [Nat.zero_add] at hv ⊢
              rw [rdG (a := u) (by omega), bind_ok, hv])
          refine ⟨t', e', by omega, fun i hi => ?_, fun k hk => ?_⟩
          · rw [p' i hi]
            have := pt i hi
            rw [Nat.zero_add] at this
            dsimp only
            rw [this, factor_eq, prod_range_succ]
            rfl
          · rw [q' k hk]
            exact qt k hk)
      rw [hk] at pg
      refine ⟨g, eg, ?_⟩
      obtain ⟨l, p, q⟩ := pg
      refine ⟨l, fun i hi => ?_, q⟩
      rw [p i hi, e]
      rfl

theorem inner_ok {u c : List Rat} (h : u.length ≤ c.length) : innerProduct u c = .ok (∑ i ∈ range u.length, c.getD i 0 * u.getD i 0) := by
  have := loop_acc (n := u.length) (s := 0) (f := fun i s => do
    let a ← rd u i
    let v ← rd c i
    .ok (s + a * v)) (fun i => c.getD i 0 * u.getD i 0) (fun i t hi => by
      rw [rdG (a := u) hi, bind_ok, rdG (a := c) (by omega), bind_ok, mul_comm])
  rw [zero_add] at this
  exact this

theorem resize_length (l : List Rat) (n : Nat) : (resize l n).length = n := by
  simp [resize]
  omega

/-- `eval` into a buffer of just the right size, and `inner_product`. -/
theorem eval_inner {b : Basis} {cell : Nat} (h : Usable b cell) {x f c : List Rat} (hx : b.dim ≤ x.length) (hf : f.length = count b.kind b.degree b.dim)
    (hc : count b.kind b.degree b.dim ≤ c.length) : ∃ g, eval b cell x f = .ok g ∧ g.length = f.length ∧ innerProduct g c = .ok (value b cell c x) := by
  obtain ⟨g, e, l, p, _⟩ := eval_ok h (f := f) hx (by omega)
  refine ⟨g, e, l, ?_⟩
  rw [inner_ok (by omega), l, hf]
  unfold value
  congr 1
  refine sum_congr rfl (fun i hi => ?_)
  have := p i (mem_range.1 hi)
  rw [Nat.zero_add] at this
  rw [this]

theorem evalFunc_ok {b : Basis} {cell : Nat} (h : Usable b cell) (bvals : List Rat) {c x : List Rat} (hx : b.dim ≤ x.length) (hc : count b.kind b.degree b.dim ≤ c.length) :
    ∃ bv, evalFunc b bvals cell c x = .ok (value b cell c x, bv) := by
  obtain ⟨g, e, l, i⟩ := eval_inner h (f := resize bvals (count b.kind b.degree b.dim)) hx (resize_length _ _) hc
  refine ⟨g, ?_⟩
  unfold evalFunc
  rw [numBasis_eq h, bind_ok, e, bind_ok, i, bind_ok]

theorem average_ok {b : Basis} {cell : Nat} (h : Usable b cell) {c : List Rat} (hc : count b.kind b.degree b.dim ≤ c.length) :
    functionAverage b c = .ok (match b.kind with
      | .totalDegree => c.getD 0 0
      | .multilin => (∑ i ∈ range (count b.kind b.degree b.dim), c.getD i 0) / count b.kind b.degree b.dim) := by
  have hp := count_pos b.kind b.degree b.dim
  have hnb := numBasis_eq h
  unfold functionAverage
  cases hk : b.kind with
  | totalDegree =>
    dsimp only
    exact rdG (by omega)
  | multilin =>
    dsimp only
    rw [hnb, bind_ok]
    have := loop_acc (n := count b.kind b.degree b.dim) (s := 0) (f := fun i s => do
      let v ← rd c i
      .ok (s + v)) (fun i => c.getD i 0) (fun i t hi => by
        rw [rdG (a := c) (by omega), bind_ok])
    unfold accumulate
    rw [this, bind_ok, zero_add, fdiv, if_neg (by exact_mod_cast hp.ne'), hk]

/-- The value at the centroid of the cell. -/
def centre (b : Basis) (c : List Rat) : Rat := match b.kind with
  | .totalDegree => c.getD 0 0
  | .multilin => (∑ i ∈ range (count b.kind b.degree b.dim), c.getD i 0) / count b.kind b.degree b.dim

theorem average_eq {b : Basis} {cell : Nat} (h : Usable b cell) {c : List Rat} (hc : count b.kind b.degree b.dim ≤ c.length) : functionAverage b c = .ok (centre b c) :=
  average_ok h hc

/-- The multilinear polynomials sum up to one. -/
theorem sum_poly {b : Basis} {cell : Nat} (h : Usable b cell) (hk : b.kind = .multilin) (y : Nat → Rat) :
    ∑ ix ∈ range (count b.kind b.degree b.dim), poly b.kind b.degree b.dim ix y = 1 := by
  obtain ⟨hd, hn⟩ := cases_of h
  rw [hk]
  rcases hd with e | e <;> rw [e]
  · simp [count, poly]
  · rcases hn with e | e | e <;> rw [e] <;> simp [count, poly, sum_range_succ, prod_range_succ, Nat.testBit] <;> ring

theorem multiply_ok {b : Basis} {cell : Nat} (h : Usable b cell) (fac : Rat) {c : List Rat} (hc : count b.kind b.degree b.dim ≤ c.length) :
    ∃ c', multiplyGradient b fac c = .ok c' ∧ Upd c 0 (count b.kind b.degree b.dim) (fun i => match b.kind with
      | .totalDegree => if i = 0 then c.getD 0 0 else c.getD i 0 * fac
      | .multilin => fac * (c.getD i 0 - centre b c) + centre b c) c' := by
  have hp := count_pos b.kind b.degree b.dim
  have hnb := numBasis_eq h
  have hav := average_eq h hc
  unfold multiplyGradient
  cases hk : b.kind with
  | totalDegree =>
    dsimp only
    rw [hnb, bind_ok, forRange]
    obtain ⟨t, e, l, p, q⟩ := loop_upd (n := count b.kind b.degree b.dim - 1) (a := c) (f := fun k c => do
      let v ← rd c (1 + k)
      wr c (1 + k) (v * fac)) 1 (fun k => c.getD (1 + k) 0 * fac) (by omega) (fun i u hi hu hv => by
        rw [rdG (a := u) (by omega), bind_ok, hv])
    refine ⟨t, e, l, fun i hi => ?_, fun k hk' => ?_⟩
    · rw [hk] at p
      cases i with
      | zero =>
        dsimp only
        rw [if_pos rfl]
        exact q 0 (fun i _ => by omega)
      | succ i =>
        dsimp only
        rw [if_neg (by omega)]
        have := p i (by rw [hk] at hp; omega)
        rw [show 0 + (i + 1) = 1 + i by omega, this]
        dsimp only
        rw [show 1 + i = i + 1 by omega]
    · rw [hk] at q
      exact q k (fun i hi e => hk' (1 + i) (by omega) (by omega))
  | multilin =>
    dsimp only
    rw [hnb, bind_ok, hav, bind_ok, hk]
    rw [hk] at hc
    exact loop_upd 0 _ (by omega) (fun i u hi hu hv => by
      rw [Nat.zero_add] at hv ⊢
      rw [rdG (a := u) (by omega), bind_ok, hv])

theorem addConstant_ok {b : Basis} {cell : Nat} (h : Usable b cell) (inc : Rat) {c : List Rat} (hc : count b.kind b.degree b.dim ≤ c.length) :
    ∃ c', addConstant b inc c = .ok c' ∧ Upd c 0 (count b.kind b.degree b.dim) (fun i => match b.kind with
      | .totalDegree => if i = 0 then c.getD 0 0 + inc else c.getD i 0
      | .multilin => c.getD i 0 + inc / count b.kind b.degree b.dim) c' := by
  have hp := count_pos b.kind b.degree b.dim
  have hnb := numBasis_eq h
  unfold addConstant
  cases hk : b.kind with
  | totalDegree =>
    dsimp only
    rw [rdG (a := c) (by omega), bind_ok, wr_ok (by omega)]
    refine ⟨_, rfl, by simp, fun i hi => ?_, fun k hk' => ?_⟩
    · rw [getD_set' (by omega), Nat.zero_add]
    · rw [hk] at hp hc
      rw [getD_set' (by omega), if_neg (fun e => hk' 0 hp (by omega))]
  | multilin =>
    dsimp only
    rw [hnb, bind_ok, fdiv, if_neg (by exact_mod_cast hp.ne'), bind_ok, hk]
    rw [hk] at hc
    exact loop_upd 0 _ (by omega) (fun i u hi hu hv => by
      rw [Nat.zero_add] at hv ⊢
      rw [rdG (a := u) (by omega), bind_ok, hv])

/-- The average is the value at the centroid. -/
theorem centre_eq {b : Basis} {cell : Nat} (h : Usable b cell) (c : List Rat) {x : List Rat} (hx : ∀ d, d < b.dim → rel b cell x d = 0) : value b cell c x = centre b c := by
  obtain ⟨hd, hn⟩ := cases_of h
  unfold value centre
  cases hk : b.kind <;> dsimp only <;> rcases hd with e | e <;> rw [e]
  · simp [count, poly]
  · rcases hn with e | e | e <;> rw [e] at hx ⊢ <;> simp [count, poly, sum_range_succ, hx]
  · simp [count, poly]
  · rcases hn with e | e | e <;> rw [e] at hx ⊢ <;> simp [count, poly, sum_range_succ, prod_range_succ, Nat.testBit, hx] <;> try ring

theorem value_add {b : Basis} {cell : Nat} (h : Usable b cell) {inc : Rat} {c c' : List Rat} (hc : count b.kind b.degree b.dim ≤ c.length) (e : addConstant b inc c = .ok c') (x : List Rat) :
    value b cell c' x = value b cell c x + (match b.kind with | .totalDegree => inc | .multilin => inc / count b.kind b.degree b.dim) := by
  obtain ⟨c1, e1, l, p, q⟩ := addConstant_ok h inc hc
  rw [e] at e1
  cases e1
  have hs := sum_poly h
  unfold value
  simp only [Nat.zero_add] at p
  rw [sum_congr rfl (fun i hi => by rw [p i (mem_range.1 hi)])]
  cases hk : b.kind <;> rw [hk] at hs <;> dsimp only
  · obtain ⟨n, hn⟩ : ∃ n, count .totalDegree b.degree b.dim = n + 1 := ⟨_, (Nat.succ_pred_eq_of_pos (count_pos _ _ _)).symm⟩
    rw [hn, sum_range_succ', sum_range_succ' (n := n), if_pos rfl]
    rw [sum_congr rfl (fun i _ => by rw [if_neg (Nat.succ_ne_zero i)])]
    have : poly .totalDegree b.degree b.dim 0 (rel b cell x) = 1 := by
      rcases (cases_of h).1 with e | e <;> rw [e] <;> rfl
    rw [this]
    ring
  · simp only [add_mul, sum_add_distrib]
    rw [← mul_sum, hs rfl, mul_one]

theorem value_multiply {b : Basis} {cell : Nat} (h : Usable b cell) {fac : Rat} {c c' : List Rat} (hc : count b.kind b.degree b.dim ≤ c.length) (e : multiplyGradient b fac c = .ok c') (x : List Rat) :
    value b cell c' x = fac * (value b cell c x - centre b c) + centre b c := by
  obtain ⟨c1, e1, l, p, q⟩ := multiply_ok h fac hc
  rw [e] at e1
  cases e1
  have hs := sum_poly h
  unfold value
  simp only [Nat.zero_add] at p
  rw [sum_congr rfl (fun i hi => by rw [p i (mem_range.1 hi)])]
  cases hk : b.kind <;> rw [hk] at hs <;> dsimp only
  · obtain ⟨n, hn⟩ : ∃ n, count .totalDegree b.degree b.dim = n + 1 := ⟨_, (Nat.succ_pred_eq_of_pos (count_pos _ _ _)).symm⟩
    rw [hn, sum_range_succ', sum_range_succ' (n := n), if_pos rfl]
    rw [sum_congr rfl (fun i _ => by rw [if_neg (Nat.succ_ne_zero i)])]
    have : poly .totalDegree b.degree b.dim 0 (rel b cell x) = 1 := by
      rcases (cases_of h).1 with e | e <;> rw [e] <;> rfl
    rw [this]
    have hcen : centre b c = c.getD 0 0 := by unfold centre; rw [hk]
    rw [hcen, mul_one, add_sub_cancel_right, mul_sum]
    congr 1
    exact sum_congr rfl (fun i _ => by ring)
  · have : ∀ i, (fac * (c.getD i 0 - centre b c) + centre b c) * poly .multilin b.degree b.dim i (rel b cell x)
        = fac * (c.getD i 0 * poly .multilin b.degree b.dim i (rel b cell x)) + (centre b c - fac * centre b c) * poly .multilin b.degree b.dim i (rel b cell x) := fun i => by ring
    rw [sum_congr rfl (fun i _ => this i), sum_add_distrib, ← mul_sum, ← mul_sum, hs rfl]
    ring

/-- The polynomials are affine in each coordinate. -/
theorem poly_move {b : Basis} {cell : Nat} (h : Usable b cell) {ix d : Nat} (hix : ix < count b.kind b.degree b.dim) (hd : d < b.dim) (y : Nat → Rat) (t : Rat) :
    poly b.kind b.degree b.dim ix (fun e => if e = d then y e + t else y e) = poly b.kind b.degree b.dim ix y + t * deriv b ix d y := by
  obtain ⟨hdeg, hn⟩ := cases_of h
  unfold deriv
  rcases hdeg with e | e <;> rw [e] at hix ⊢
  · simp [poly]
  rw [if_neg (by decide)]
  cases hk : b.kind <;> rw [hk] at hix <;> dsimp only
  · cases ix with
    | zero => simp [poly]
    | succ ix =>
      by_cases q : ix = d
      · subst q
        simp [poly]
      · simp [poly, q]
  · rcases hn with e | e | e <;> rw [e] at hd hix ⊢
    all_goals
      have hd3 : d = 0 ∨ d = 1 ∨ d = 2 := by omega
      rcases hd3 with rfl | rfl | rfl <;> simp only [poly, prod_range_succ, prod_range_zero] <;> first | omega | skip
    all_goals
      norm_num
      try split_ifs
      all_goals ring

theorem value_move {b : Basis} {cell : Nat} (h : Usable b cell) {d : Nat} (hd : d < b.dim) (c : List Rat) {x : List Rat} (hx : b.dim ≤ x.length) (t : Rat) :
    value b cell c (x.set d (x.getD d 0 + t)) = value b cell c x + t * ∑ ix ∈ range (count b.kind b.degree b.dim), c.getD ix 0 * deriv b ix d (rel b cell x) := by
  have hr : rel b cell (x.set d (x.getD d 0 + t)) = fun e => if e = d then rel b cell x e + t else rel b cell x e := by
    funext e
    unfold rel
    rw [getD_set' (by omega)]
    by_cases q : e = d
    · rw [if_pos q, if_pos q, q]
      ring
    · rw [if_neg q, if_neg q]
  unfold value
  rw [hr, mul_sum, ← sum_add_distrib]
  refine sum_congr rfl (fun ix hix => ?_)
  rw [poly_move h (mem_range.1 hix) hd]
  ring

/-- What `evalGrad` writes. -/
theorem evalGrad_ok {b : Basis} {cell : Nat} (h : Usable b cell) {x g : List Rat} (hx : b.dim ≤ x.length) (hg : count b.kind b.degree b.dim * b.dim ≤ g.length) :
    ∃ g', evalGrad b cell x g = .ok g' ∧ g'.length = g.length ∧ (∀ ix d, ix < count b.kind b.degree b.dim → d < b.dim → g'.getD (ix * b.dim + d) 0 = deriv b ix d (rel b cell x)) ∧
      ∀ k, count b.kind b.degree b.dim * b.dim ≤ k → g'.getD k 0 = g.getD k 0 := by
  obtain ⟨hdeg, hn⟩ := cases_of h
  have hnb := numBasis_eq h
  have hc := h.cell
  have hlt : ∀ {ix d N n : Nat}, ix < N → d < n → ix * n + d < N * n := fun {ix d N n} h1 h2 => by
    calc ix * n + d < ix * n + n := by omega
      _ = (ix + 1) * n := by ring
      _ ≤ N * n := Nat.mul_le_mul_right _ h1
  unfold evalGrad
  cases hk : b.kind with
  | totalDegree =>
    dsimp only
    unfold evalGradTotal
    rw [hnb, bind_ok]
    obtain ⟨f1, e1, l1, p1, q1⟩ := fill_ok hg 0
    rw [e1, bind_ok]
    rw [hk] at p1 q1 hg
    rcases hdeg with e | e
    · rw [if_neg (by rw [e]; decide)]
      refine ⟨f1, rfl, l1, fun ix d h1 h2 => ?_, fun k hk' => q1 k (fun i hi q => by omega)⟩
      have := p1 (ix * b.dim + d) (hlt h1 h2)
      rw [Nat.zero_add] at this
      rw [this, deriv, if_pos e]
    · rw [if_pos e]
      rw [e] at p1 q1 hg ⊢
      have hcount : count .totalDegree 1 b.dim = b.dim + 1 := rfl
      rw [hcount] at p1 q1 hg ⊢
      have hinj : ∀ i j, i < b.dim → j < b.dim → b.dim * (i + 1) + i = b.dim * (j + 1) + j → i = j := by
        intro i j hi hj q
        rcases lt_trichotomy i j with w | w | w
        · have := Nat.mul_le_mul_left b.dim (show i + 1 ≤ j by omega)
          nlinarith
        · exact w
        · have := Nat.mul_le_mul_left b.dim (show j + 1 ≤ i by omega)
          nlinarith
      have hin : ∀ i, i < b.dim → b.dim * (i + 1) + i < (b.dim + 1) * b.dim := fun i hi => by
        rw [Nat.mul_comm]
        exact hlt (by omega) hi
      obtain ⟨t, et, lt, pt, qt⟩ := loop_writes (n := b.dim) (s := f1) (f := fun ix g => wr g (b.dim * (ix + 1) + ix) 1) (fun ix => b.dim * (ix + 1) + ix) (fun _ => 1)
        (fun i hi => by have := hin i hi; omega) hinj (fun i t _ _ _ => rfl)
      refine ⟨t, et, by omega, fun ix d h1 h2 => ?_, fun k hk' => ?_⟩
      · rw [deriv, if_neg (by rw [e]; decide), hk]
        dsimp only
        by_cases q : ix = d + 1
        · rw [if_pos q]
          subst q
          have := pt d h2
          rw [Nat.mul_comm] at this
          exact this
        · rw [if_neg q, qt _ (fun i hi w => q ?_)]
          · have := p1 (ix * b.dim + d) (hlt h1 h2)
            rw [Nat.zero_add] at this
            exact this
          · have w1 : ((i + 1) * b.dim + i) / b.dim = (ix * b.dim + d) / b.dim := by rw [← w, Nat.mul_comm]
            have w2 : ((i + 1) * b.dim + i) % b.dim = (ix * b.dim + d) % b.dim := by rw [← w, Nat.mul_comm]
            rw [Nat.mul_comm, Nat.mul_comm ix, Nat.mul_add_div (by omega), Nat.mul_add_div (by omega), Nat.div_eq_of_lt hi, Nat.div_eq_of_lt h2] at w1
            rw [Nat.mul_comm, Nat.mul_comm ix, Nat.mul_add_mod, Nat.mul_add_mod, Nat.mod_eq_of_lt hi, Nat.mod_eq_of_lt h2] at w2
            omega
      · rw [qt k (fun i hi w => by have := hin i hi; omega)]
        exact q1 k (fun i hi w => by omega)
  | multilin =>
    dsimp only
    unfold evalGradMultilin
    rw [hnb, bind_ok]
    rcases hdeg with e | e
    · rw [if_pos e]
      obtain ⟨f1, e1, l1, p1, q1⟩ := fill_ok hg 0
      rw [e1]
      rw [hk] at p1 q1
      refine ⟨f1, rfl, l1, fun ix d h1 h2 => ?_, fun k hk' => q1 k (fun i hi q => by omega)⟩
      have := p1 (ix * b.dim + d) (hlt h1 h2)
      rw [Nat.zero_add] at this
      rw [this, deriv, if_pos e]
    · rw [if_neg (by rw [e]; decide), if_pos e]
      obtain ⟨f1, e1, l1, p1, q1⟩ := fill_ok hg 1
      rw [e1, bind_ok]
      generalize hN : count b.kind b.degree b.dim = N at *
      have hN' : count .multilin b.degree b.dim = N := by rw [← hN, hk]
      rw [hN']
      obtain ⟨t, et, lt, pt, qt⟩ := loop_inv (n := b.dim) (s := f1) (f := fun dd g => do
          let xd ← rd x dd
          let cd ← rd b.centroids (b.dim * cell + dd)
          loop N (fun ix g => loop b.dim (fun dder g => do
            let v ← rd g (ix * b.dim + dder)
            wr g (ix * b.dim + dder) (v * (if dder = dd then factorDer (side b.dim dd ix) else factor xd cd (side b.dim dd ix)))) g) g)
        (fun m t => t.length = g.length ∧ (∀ ix d, ix < N → d < b.dim → t.getD (ix * b.dim + d) 0 =
            ∏ e ∈ range m, if d = e then (if ix.testBit (b.dim - 1 - e) then 1 else -1) else if ix.testBit (b.dim - 1 - e) then 1 / 2 + rel b cell x e else 1 / 2 - rel b cell x e) ∧
          ∀ k, N * b.dim ≤ k → t.getD k 0 = g.getD k 0)
        ⟨l1, fun ix d h1 h2 => by have := p1 (ix * b.dim + d) (hlt h1 h2); rw [Nat.zero_add] at this; rw [this]; simp, fun k hk' => q1 k (fun i hi q => by omega)⟩ (by
          rintro m t hm ⟨lt, pt, qt⟩
          rw [rdG (a := x) (by omega), bind_ok, rdG (a := b.centroids) (by omega), bind_ok]
          obtain ⟨u, eu, lu, pu, qu⟩ := loop_blocks (n := N) (s := t) (f := fun ix g => loop b.dim (fun dder g => do
            let v ← rd g (ix * b.dim + dder)
            wr g (ix * b.dim + dder) (v * (if dder = m then factorDer (side b.dim m ix) else factor (x.getD m 0) (b.centroids.getD (b.dim * cell + m) 0) (side b.dim m ix)))) g) 0 b.dim
            (fun ix d => t.getD (ix * b.dim + d) 0 * (if d = m then factorDer (side b.dim m ix) else factor (x.getD m 0) (b.centroids.getD (b.dim * cell + m) 0) (side b.dim m ix))) (by
              intro ix u hix hu hv
              simp only [Nat.zero_add] at hv ⊢
              have hb : ix * b.dim + b.dim ≤ N * b.dim := by
                calc ix * b.dim + b.dim = (ix + 1) * b.dim := by ring
                  _ ≤ N * b.dim := Nat.mul_le_mul_right _ hix
              obtain ⟨w, ew, lw, pw, qw⟩ := loop_upd (n := b.dim) (a := u) (f := fun dder g => do
                let v ← rd g (ix * b.dim + dder)
                wr g (ix * b.dim + dder) (v * (if dder = m then factorDer (side b.dim m ix) else factor (x.getD m 0) (b.centroids.getD (b.dim * cell + m) 0) (side b.dim m ix)))) (ix * b.dim)
                (fun d => t.getD (ix * b.dim + d) 0 * (if d = m then factorDer (side b.dim m ix) else factor (x.getD m 0) (b.centroids.getD (b.dim * cell + m) 0) (side b.dim m ix))) (by omega) (fun i z hi hz hzv => by
                  rw [rdG (a := z) (by omega), bind_ok, hzv, hv i hi])
              exact ⟨w, ew, by omega, pw, qw⟩)
          simp only [Nat.zero_add] at pu qu
          refine ⟨u, eu, by omega, fun ix d h1 h2 => ?_, fun k hk' => ?_⟩
          · rw [pu ix d h1 h2, pt ix d h1 h2, prod_range_succ, factor_eq, factorDer_eq]
            rfl
          · rw [qu k (fun i j hi hj w => by have := hlt hi hj; omega)]
            exact qt k hk')
      refine ⟨t, et, lt, fun ix d h1 h2 => ?_, qt⟩
      rw [pt ix d h1 h2, deriv, if_neg (by rw [e]; decide), hk]

end Opm.DGBasis
