import Verif.Proofs.DGBasis
/-!
# Properties of the bases of the discontinuous Galerkin method
-/

namespace Opm.DGBasis
open Opm Finset

/-- The constructors return exactly for at most three dimensions and degree 0 or 1, and keep what they were given; otherwise they throw. -/
theorem constructor_outcome (k : Kind) (dim : Nat) (ce : List Rat) (deg : Int) :
    make k dim ce deg = if dim ≤ 3 ∧ (deg = 0 ∨ deg = 1) then .ok ⟨k, dim, deg, ce⟩ else .error .thrown := by
  unfold make
  by_cases h : dim ≤ 3
  · by_cases h2 : deg = 0 ∨ deg = 1
    · rw [if_neg (by omega), if_neg (by omega), if_pos ⟨h, h2⟩]
    · rw [if_neg (by omega), if_pos (by omega), if_neg (fun q => h2 q.2)]
  · rw [if_pos (by omega), if_neg (fun q => h q.1)]

/-- The number of basis functions: one for degree 0; for degree 1 one more than dimensions, or two to the power of the dimensions. -/
theorem number_of_functions {b : Basis} {cell : Nat} (h : Usable b cell) :
    numBasis b = .ok (if b.degree = 0 then 1 else match b.kind with | .totalDegree => b.dim + 1 | .multilin => 2 ^ b.dim) := by
  rw [numBasis_eq h]
  rcases (cases_of h).1 with e | e <;> rw [e] <;> cases b.kind <;> rfl

/-- `eval` writes the values of the polynomials at `x`, and nothing else. -/
theorem eval_writes_values {b : Basis} {cell : Nat} (h : Usable b cell) {x f : List Rat} (hx : b.dim ≤ x.length) (hf : count b.kind b.degree b.dim ≤ f.length) :
    ∃ g, eval b cell x f = .ok g ∧ g.length = f.length ∧ (∀ ix, ix < count b.kind b.degree b.dim → g.getD ix 0 = poly b.kind b.degree b.dim ix (rel b cell x)) ∧
      ∀ k, count b.kind b.degree b.dim ≤ k → g.getD k 0 = f.getD k 0 := by
  obtain ⟨g, e, l, p, q⟩ := eval_ok h hx hf
  exact ⟨g, e, l, fun i hi => by have := p i hi; rwa [Nat.zero_add] at this, fun k hk => q k (fun i hi e => by omega)⟩

/-- `evalFunc` returns the value of `Σ cᵢ bᵢ` at `x`, whatever earlier calls left in the object. -/
theorem evalFunc_value {b : Basis} {cell : Nat} (h : Usable b cell) (bvals : List Rat) {c x : List Rat} (hx : b.dim ≤ x.length) (hc : count b.kind b.degree b.dim ≤ c.length) :
    ∃ bv, evalFunc b bvals cell c x = .ok (value b cell c x, bv) :=
  evalFunc_ok h bvals hx hc

/-- The values that `evalFunc` returns after moving `x` by `t` in direction `d` differ by `t` times the inner product of the coefficients with what `evalGrad` wrote: these are the partial derivatives. -/
theorem gradient_is_derivative {b : Basis} {cell : Nat} (h : Usable b cell) {x g : List Rat} (hx : b.dim ≤ x.length) (hg : count b.kind b.degree b.dim * b.dim ≤ g.length) :
    ∃ g', evalGrad b cell x g = .ok g' ∧ g'.length = g.length ∧ (∀ k, count b.kind b.degree b.dim * b.dim ≤ k → g'.getD k 0 = g.getD k 0) ∧
      ∀ d t c bvals v bv v' bv', d < b.dim → count b.kind b.degree b.dim ≤ c.length → evalFunc b bvals cell c x = .ok (v, bv) → evalFunc b bv cell c (x.set d (x.getD d 0 + t)) = .ok (v', bv') →
        v' = v + t * ∑ ix ∈ range (count b.kind b.degree b.dim), c.getD ix 0 * g'.getD (ix * b.dim + d) 0 := by
  obtain ⟨g', e, l, p, q⟩ := evalGrad_ok h hx hg
  refine ⟨g', e, l, q, fun d t c bvals v bv v' bv' hd hc e1 e2 => ?_⟩
  obtain ⟨_, f1⟩ := evalFunc_ok h bvals hx hc
  obtain ⟨_, f2⟩ := evalFunc_ok h bv (c := c) (x := x.set d (x.getD d 0 + t)) (by simpa using hx) hc
  rw [f1] at e1
  rw [f2] at e2
  cases e1
  cases e2
  rw [value_move h hd c hx]
  congr 2
  exact sum_congr rfl (fun ix hix => by rw [p ix d (mem_range.1 hix) hd])

/-- `functionAverage` is the value at the centroid of the cell. -/
theorem average_at_centroid {b : Basis} {cell : Nat} (h : Usable b cell) (bvals : List Rat) {c x : List Rat} (hx : b.dim ≤ x.length) (hc : count b.kind b.degree b.dim ≤ c.length)
    (hce : ∀ d, d < b.dim → x.getD d 0 = b.centroids.getD (b.dim * cell + d) 0) : ∃ v bv, functionAverage b c = .ok v ∧ evalFunc b bvals cell c x = .ok (v, bv) := by
  obtain ⟨bv, e⟩ := evalFunc_ok h bvals hx hc
  refine ⟨_, bv, average_eq h hc, ?_⟩
  rw [e, centre_eq h c (fun d hd => by rw [rel, hce d hd, sub_self])]

/-- With the basis of bounded total degree, `functionAverage` is the average for every distribution of mass whose centre is the centroid of the cell. -/
theorem average_of_mass {b : Basis} {cell : Nat} (h : Usable b cell) (hk : b.kind = .totalDegree) {c : List Rat} (hc : count b.kind b.degree b.dim ≤ c.length)
    (n : Nat) (w : Nat → Rat) (p : Nat → List Rat) (hw : ∑ i ∈ range n, w i = 1) (hp : ∀ d, d < b.dim → ∑ i ∈ range n, w i * (p i).getD d 0 = b.centroids.getD (b.dim * cell + d) 0) :
    functionAverage b c = .ok (∑ i ∈ range n, w i * value b cell c (p i)) := by
  rw [average_eq h hc]
  congr 1
  have hr : ∀ d, d < b.dim → ∑ i ∈ range n, w i * rel b cell (p i) d = 0 := by
    intro d hd
    unfold rel
    simp only [mul_sub, sum_sub_distrib]
    rw [hp d hd, ← sum_mul, hw]
    ring
  unfold value centre
  rw [hk]
  dsimp only
  rcases (cases_of h).1 with e | e <;> rw [e]
  · simp only [count, poly, sum_range_one, mul_one]
    rw [← sum_mul, hw, one_mul]
  · simp only [count]
    have : ∀ i, w i * ∑ ix ∈ range (b.dim + 1), c.getD ix 0 * poly .totalDegree 1 b.dim ix (rel b cell (p i))
        = ∑ ix ∈ range b.dim, c.getD (ix + 1) 0 * (w i * rel b cell (p i) ix) + w i * c.getD 0 0 := by
      intro i
      rw [sum_range_succ', mul_add, mul_sum]
      congr 1
      · exact sum_congr rfl (fun ix _ => by simp only [poly]; ring)
      · simp [poly]
    rw [sum_congr rfl (fun i _ => this i), sum_add_distrib, sum_comm, ← sum_mul, hw, one_mul]
    rw [sum_congr rfl (fun ix hix => by rw [← mul_sum, hr ix (mem_range.1 hix), mul_zero])]
    simp

/-- The corners of the box around the centroid of a cell with half widths `w`. -/
def boxCorner (b : Basis) (cell : Nat) (w : Nat → Rat) (s : Nat) : List Rat :=
  (List.range b.dim).map (fun d => b.centroids.getD (b.dim * cell + d) 0 + if s.testBit d then w d else -w d)

/-- With both bases, `functionAverage` is the mean of the values at the corners of every box around the centroid. -/
theorem average_over_box {b : Basis} {cell : Nat} (h : Usable b cell) {c : List Rat} (hc : count b.kind b.degree b.dim ≤ c.length) (w : Nat → Rat) :
    functionAverage b c = .ok ((∑ s ∈ range (2 ^ b.dim), value b cell c (boxCorner b cell w s)) / 2 ^ b.dim) := by
  rw [average_eq h hc]
  congr 1
  have hr : ∀ s d, d < b.dim → rel b cell (boxCorner b cell w s) d = if s.testBit d then w d else -w d := by
    intro s d hd
    unfold rel boxCorner
    have : ((List.range b.dim).map (fun d => b.centroids.getD (b.dim * cell + d) 0 + if s.testBit d then w d else -w d)).getD d 0 = b.centroids.getD (b.dim * cell + d) 0 + if s.testBit d then w d else -w d := by
      simp [List.getD_eq_getElem?_getD, hd]
    rw [this]
    ring
  obtain ⟨hd, hn⟩ := cases_of h
  unfold value centre
  cases hk : b.kind <;> dsimp only <;> rcases hd with e | e <;> rw [e] <;> rcases hn with e | e | e <;> rw [e] at hr ⊢
  all_goals
    simp [count, poly, sum_range_succ, prod_range_succ, Nat.testBit, hr]
    try ring

/-- The full claim about `addConstant`: the function becomes `f + increment` everywhere, coefficients beyond those of the cell stay. -/
def AddsConstant (b : Basis) (cell : Nat) (inc : Rat) (c : List Rat) : Prop :=
  ∃ c', addConstant b inc c = .ok c' ∧ c'.length = c.length ∧ (∀ k, count b.kind b.degree b.dim ≤ k → c'.getD k 0 = c.getD k 0) ∧
    ∀ x bvals v bv, b.dim ≤ x.length → evalFunc b bvals cell c x = .ok (v, bv) → ∃ bv', evalFunc b bv cell c' x = .ok (v + inc, bv')

/-- `addConstant` of the basis of bounded total degree, and of the multilinear basis of degree 0, adds the constant.  Missing: the multilinear basis of degree 1, of which it is false, see `addConstant_multilin`. -/
theorem addConstant_adds_partial {b : Basis} {cell : Nat} (h : Usable b cell) (hk : b.kind = .totalDegree ∨ b.degree = 0) (inc : Rat) {c : List Rat} (hc : count b.kind b.degree b.dim ≤ c.length) :
    AddsConstant b cell inc c := by
  obtain ⟨c', e, l, p, q⟩ := addConstant_ok h inc hc
  refine ⟨c', e, l, fun k hk => q k (fun i hi e => by omega), fun x bvals v bv hx ev => ?_⟩
  obtain ⟨_, f1⟩ := evalFunc_ok h bvals hx hc
  rw [f1] at ev
  cases ev
  obtain ⟨bv', f2⟩ := evalFunc_ok h bv (c := c') hx (by omega)
  refine ⟨bv', ?_⟩
  rw [f2, value_add h hc e]
  rcases hk with q | q
  · rw [q]
  · rw [q]
    cases b.kind <;> simp [count]

/-- What `addConstant` of the multilinear basis of degree 1 does: it adds the constant divided by the number of basis functions. -/
theorem addConstant_multilin {b : Basis} {cell : Nat} (h : Usable b cell) (hk : b.kind = .multilin) (hd : b.degree = 1) (inc : Rat) {c : List Rat} (hc : 2 ^ b.dim ≤ c.length) :
    ∃ c', addConstant b inc c = .ok c' ∧ ∀ x bvals v bv, b.dim ≤ x.length → evalFunc b bvals cell c x = .ok (v, bv) → ∃ bv', evalFunc b bv cell c' x = .ok (v + inc / 2 ^ b.dim, bv') := by
  have hn : count b.kind b.degree b.dim = 2 ^ b.dim := by rw [hk, hd]; rfl
  rw [← hn] at hc
  obtain ⟨c', e, l, p, q⟩ := addConstant_ok h inc hc
  refine ⟨c', e, fun x bvals v bv hx ev => ?_⟩
  obtain ⟨_, f1⟩ := evalFunc_ok h bvals hx hc
  rw [f1] at ev
  cases ev
  obtain ⟨bv', f2⟩ := evalFunc_ok h bv (c := c') hx (by omega)
  refine ⟨bv', ?_⟩
  rw [f2, value_add h hc e, hk]
  dsimp only
  rw [show count .multilin b.degree b.dim = 2 ^ b.dim from hk ▸ hn]
  push_cast
  rfl

/-- So the claim fails of the multilinear basis of degree 1 for every cell, all coefficients and every constant but zero. -/
theorem addConstant_multilin_wrong {b : Basis} {cell : Nat} (h : Usable b cell) (hk : b.kind = .multilin) (hd : b.degree = 1) {inc : Rat} (hinc : inc ≠ 0) {c : List Rat} (hc : 2 ^ b.dim ≤ c.length) :
    ¬ AddsConstant b cell inc c := by
  rintro ⟨c', e, _, _, hall⟩
  have hn : count b.kind b.degree b.dim = 2 ^ b.dim := by rw [hk, hd]; rfl
  obtain ⟨c1, e1, hall1⟩ := addConstant_multilin h hk hd inc hc
  rw [e] at e1
  cases e1
  obtain ⟨bv, f⟩ := evalFunc_ok h [] (c := c) (x := List.replicate b.dim 0) (by simp) (by omega)
  obtain ⟨_, a⟩ := hall _ _ _ _ (by simp) f
  obtain ⟨_, a1⟩ := hall1 _ _ _ _ (by simp) f
  rw [a] at a1
  have := congrArg Prod.fst (Except.ok.inj a1)
  dsimp only at this
  have hq : inc = inc / 2 ^ b.dim := by linarith
  have h2 : (2 : Rat) ^ b.dim ≠ 0 := by positivity
  rw [eq_div_iff h2] at hq
  have h3 : (2 : Rat) ^ b.dim = 1 := by
    have : inc * (2 ^ b.dim - 1) = 0 := by linarith
    rcases mul_eq_zero.1 this with q | q
    · exact absurd q hinc
    · linarith
  rcases (cases_of h).2 with q | q | q <;> rw [q] at h3 <;> norm_num at h3

/-- `multiplyGradient` multiplies the difference to the average by the factor everywhere - so the gradient by the factor - and keeps the average; coefficients beyond those of the cell stay. -/
theorem multiplyGradient_scales {b : Basis} {cell : Nat} (h : Usable b cell) (fac : Rat) {c : List Rat} (hc : count b.kind b.degree b.dim ≤ c.length) :
    ∃ c' a, multiplyGradient b fac c = .ok c' ∧ c'.length = c.length ∧ (∀ k, count b.kind b.degree b.dim ≤ k → c'.getD k 0 = c.getD k 0) ∧
      functionAverage b c = .ok a ∧ functionAverage b c' = .ok a ∧
      ∀ x bvals v bv, b.dim ≤ x.length → evalFunc b bvals cell c x = .ok (v, bv) → ∃ bv', evalFunc b bv cell c' x = .ok (fac * (v - a) + a, bv') := by
  obtain ⟨c', e, l, p, q⟩ := multiply_ok h fac hc
  have hv := value_multiply h hc e
  have hce : centre b c' = centre b c := by
    have h0 : ∀ d, d < b.dim → rel b cell (b.centroids.drop (b.dim * cell)) d = 0 := by
      intro d hd
      unfold rel
      simp [List.getD_eq_getElem?_getD]
    rw [← centre_eq h c' h0, hv, centre_eq h c h0]
    ring
  refine ⟨c', centre b c, e, l, fun k hk => q k (fun i hi e => by omega), average_eq h hc, by rw [average_eq h (by omega), hce], fun x bvals v bv hx ev => ?_⟩
  obtain ⟨_, f1⟩ := evalFunc_ok h bvals hx hc
  rw [f1] at ev
  cases ev
  obtain ⟨bv', f2⟩ := evalFunc_ok h bv (c := c') hx (by omega)
  exact ⟨bv', by rw [f2, hv]⟩

/-- Two squares: a basis of each class meets the hypotheses. -/
def sample (k : Kind) : Basis := ⟨k, 2, 1, [1 / 2, 1 / 2, 3 / 2, 1 / 2]⟩

example (k : Kind) : Usable (sample k) 1 := ⟨by cases k <;> decide +kernel, by cases k <;> decide, by cases k <;> decide⟩

example : value (sample .totalDegree) 1 [5, 2, 3] [2, 1] = 5 + 2 * (1 / 2) + 3 * (1 / 2) := by decide +kernel

example : value (sample .multilin) 1 [1, 2, 3, 4] [2, 1] = 4 ∧ value (sample .multilin) 1 [1, 2, 3, 4] [1, 1] = 2 ∧ value (sample .multilin) 1 [1, 2, 3, 4] [2, 0] = 3 := by decide +kernel

example : ¬ AddsConstant (sample .multilin) 1 4 [1, 2, 3, 4] :=
  addConstant_multilin_wrong (cell := 1) ⟨by decide +kernel, by decide, by decide⟩ rfl rfl (by decide) (by decide)

example : AddsConstant (sample .totalDegree) 1 4 [1, 2, 3] :=
  addConstant_adds_partial (cell := 1) ⟨by decide +kernel, by decide, by decide⟩ (Or.inl rfl) 4 (by decide)

end Opm.DGBasis
