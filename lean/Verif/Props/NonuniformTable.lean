import Verif.Proofs.NonuniformTable
/-!
# C18: the inverse of a non-uniform table

`GoodTable xs ys`: strictly increasing abscissas, strictly monotone ordinates, same length, at least two.
`affine a b c d` is the affine map taking `a` to `c` and `b` to `d`.
-/

namespace Opm.Interp
open Opm

/-- The calls that may change the object (`inverse` fills a cache). -/
inductive NOp where
  | inverse (y : Rat)
  | rescale (c d : Rat)

/-- A history of calls, with the rescaling function as a parameter. -/
def runWith (resc : Rat × Rat → NTable → M NTable) : List NOp → NTable → M NTable
  | [], t => .ok t
  | .inverse y :: ops, t => do
    let r ← t.inverse y
    runWith resc ops r.2
  | .rescale c d :: ops, t => do
    let t ← resc (c, d) t
    runWith resc ops t

/-- The domain after a history: that of the last `rescaleDomain`. -/
def finalDomain : List NOp → Rat × Rat → Rat × Rat
  | [], dom => dom
  | .inverse _ :: ops, dom => finalDomain ops dom
  | .rescale c d :: ops, _ => finalDomain ops (c, d)

/-- New domains are proper intervals. -/
def ProperDomains (ops : List NOp) : Prop := ∀ c d, NOp.rescale c d ∈ ops → c < d

/-- No `rescaleDomain` comes after an `inverse`. -/
def NoRescaleAfterInverse (ops : List NOp) : Prop :=
  ops.Pairwise (fun p q => ∀ y c d, p = .inverse y → q ≠ .rescale c d)

/-- What a user relies on after a history: the object evaluates as the affinely transported table on
the domain `(c, d)`, and `inverse` undoes evaluation. -/
structure Consistent (t0 : NTable) (a b : Rat) (t : NTable) (c d : Rat) : Prop where
  domain : t.domain = .ok (c, d)
  eval : ∀ x, t.eval (affine a b c d x) = t0.eval x
  inverse : ∀ x y, t.eval x = .ok y → ∃ t', t.inverse y = .ok (x, t')

/-- Invariant of the proofs. -/
structure Inv (t0 : NTable) (a b : Rat) (t : NTable) (c d : Rat) : Prop where
  ys : t.ys = t0.ys
  good : GoodTable t.xs t.ys
  first : t.xs[0]? = some c
  last : t.xs[t.xs.length - 1]? = some d
  eval : ∀ x, t.eval (affine a b c d x) = t0.eval x

theorem inv_lt {t0 t : NTable} {a b c d : Rat} (h : Inv t0 a b t c d) : c < d := by
  have h2 := h.good.two
  have := (dir_of_lt h.good.x).mono 0 (t.xs.length - 1) _ _ (by omega) h.first h.last
  linarith

theorem inv_domain {t0 t : NTable} {a b c d : Rat} (h : Inv t0 a b t c d) : t.domain = .ok (c, d) := by
  unfold NTable.domain
  rw [rd_of_getElem? h.first, bind_ok, back_ok h.last, bind_ok]

theorem affine_comp {a b c d c' d' : Rat} (hab : a ≠ b) (hcd : c ≠ d) (x : Rat) :
    affine c d c' d' (affine a b c d x) = affine a b c' d' x := by
  have h2 : b - a ≠ 0 := sub_ne_zero.2 (Ne.symm hab)
  have h3 : d - c ≠ 0 := sub_ne_zero.2 (Ne.symm hcd)
  unfold affine
  field_simp
  ring

theorem inv_rescale {t0 t : NTable} {a b c d c' d' : Rat} (hab : a < b) (h : Inv t0 a b t c d) (hcd : c' < d') :
    t.rescaleDomain (c', d') = .ok { t with xs := t.xs.map (affine c d c' d') } ∧
      Inv t0 a b { t with xs := t.xs.map (affine c d c' d') } c' d' := by
  have hlt := inv_lt h
  have hd := dir_of_lt h.good.x
  refine ⟨rescale_ok h.first h.last (ne_of_lt hlt) c' d', h.ys, ⟨pairwise_of_dir_one (affine_dir hd hlt hcd), h.good.y, ?_, ?_⟩, ?_, ?_, ?_⟩
  · simpa using h.good.len
  · simpa using h.good.two
  · simp only [List.getElem?_map, h.first, Option.map_some, affine_left]
  · simp only [List.getElem?_map, List.length_map, h.last, Option.map_some, affine_right (ne_of_lt hlt)]
  · intro x
    rw [← affine_comp (ne_of_lt hab) (ne_of_lt hlt), ← h.eval x]
    exact eval_affine hd (le_of_eq h.good.len.symm) h.good.two hlt hcd _

theorem eval_surj {t : NTable} (hg : GoodTable t.xs t.ys) (y : Rat) : ∃ x, t.eval x = .ok y := by
  have hlen := hg.len
  have h2 := hg.two
  obtain ⟨s, hd⟩ := exists_dir hg.y
  obtain ⟨i, _, _, _, _, _, _, _, _, _, _, _, e, _⟩ := deriv_on hd (by omega) (by omega) y (yv := t.xs)
  exact ⟨_, interp_inverse hd (dir_of_lt hg.x) (by omega) (by omega) e⟩

/-- **C18 (as implemented, part).** For increasing ordinates: every history of `inverse` and
`rescaleDomain` succeeds and leaves a consistent object.  For decreasing ordinates the same is proved for
histories in which no `rescaleDomain` follows an `inverse`; without that restriction the property is false,
see `inverse_after_rescale_wrong`. -/
theorem nonuniform_inverse_partial (t : NTable) (hg : GoodTable t.xs t.ys) (hfresh : t.xsRev = [] ∧ t.ysRev = []) (ops : List NOp)
    (hp : ProperDomains ops) (hh : t.ys.Pairwise (· < ·) ∨ NoRescaleAfterInverse ops) (a b : Rat) (hdom : t.domain = .ok (a, b)) :
    ∃ t', runWith NTable.rescaleDomain ops t = .ok t' ∧
      Consistent t a b t' (finalDomain ops (a, b)).1 (finalDomain ops (a, b)).2 := by
  have h2 := hg.two
  obtain ⟨a', b', ga, gb⟩ := ends h2
  have hdom' : t.domain = .ok (a', b') := by unfold NTable.domain; rw [rd_of_getElem? ga, bind_ok, back_ok gb, bind_ok]
  rw [hdom] at hdom'
  cases hdom'
  have hab : a < b := by
    have := (dir_of_lt hg.x).mono 0 (t.xs.length - 1) _ _ (by omega) ga gb
    linarith
  have h0 : Inv t a b t a b := ⟨rfl, hg, ga, gb, fun x => by
    have : affine a b a b x = x := by
      have : b - a ≠ 0 := sub_ne_zero.2 (ne_of_gt hab)
      unfold affine; field_simp; ring
    rw [this]⟩
  suffices H : ∀ (ops : List NOp) (u : NTable) (c d : Rat), Inv t a b u c d → ProperDomains ops →
      (t.ys.Pairwise (· < ·) ∨ (NoRescaleAfterInverse ops ∧ CacheOk u ∧ (u.ysRev = [] ∨ ∀ c d, NOp.rescale c d ∉ ops))) →
      ∃ t', runWith NTable.rescaleDomain ops u = .ok t' ∧ Consistent t a b t' (finalDomain ops (c, d)).1 (finalDomain ops (c, d)).2 by
    refine H ops t a b h0 hp ?_
    rcases hh with h | h
    · exact .inl h
    · exact .inr ⟨h, .inl hfresh.2, .inl hfresh.2⟩
  intro ops
  induction ops with
  | nil =>
    intro u c d hu _ hcase
    refine ⟨u, rfl, inv_domain hu, hu.eval, fun x y hxy => ?_⟩
    obtain ⟨t', e, _⟩ := inverse_ok hu.good (by
      rcases hcase with h | ⟨_, h, _⟩
      · left; rw [hu.ys]; exact h
      · exact .inr h) hxy
    exact ⟨t', e⟩
  | cons op ops ih =>
    intro u c d hu hpd hcase
    have hpd' : ProperDomains ops := fun c d h => hpd c d (List.mem_cons_of_mem _ h)
    cases op with
    | inverse y =>
      obtain ⟨x, hx⟩ := eval_surj hu.good y
      obtain ⟨u', e, k1, k2, k3, k4⟩ := inverse_ok hu.good (by
        rcases hcase with h | ⟨_, h, _⟩
        · left; rw [hu.ys]; exact h
        · exact .inr h) hx
      unfold runWith finalDomain
      rw [e, bind_ok]
      refine ih u' c d ⟨by rw [k2, hu.ys], by rw [k1, k2]; exact hu.good, by rw [k1]; exact hu.first, by rw [k1]; exact hu.last, ?_⟩ hpd' ?_
      · intro x
        rw [← hu.eval x]
        unfold NTable.eval
        rw [k1, k2]
      · rcases hcase with h | ⟨h, hc, _⟩
        · exact .inl h
        · unfold NoRescaleAfterInverse at h
          rw [List.pairwise_cons] at h
          exact .inr ⟨h.2, k3 hc, .inr (fun c d hm => h.1 _ hm y c d rfl rfl)⟩
    | rescale c' d' =>
      obtain ⟨e, hu'⟩ := inv_rescale hab hu (hpd c' d' (List.mem_cons_self ..))
      unfold runWith finalDomain
      rw [e, bind_ok]
      refine ih _ c' d' hu' hpd' ?_
      rcases hcase with h | ⟨h, hc, hr⟩
      · exact .inl h
      · unfold NoRescaleAfterInverse at h
        rw [List.pairwise_cons] at h
        rcases hr with hr | hr
        · exact .inr ⟨h.2, .inl hr, .inl hr⟩
        · exact absurd (List.mem_cons_self ..) (hr c' d')

/-- The repair: forget the cached reversed tables when the domain is rescaled. -/
def NTable.rescaleRepaired (dom : Rat × Rat) (t : NTable) : M NTable := do
  let t ← t.rescaleDomain dom
  .ok { t with xsRev := [], ysRev := [] }

/-- **C18 with the repair**: the full property, for every history and both directions. -/
theorem nonuniform_inverse_repaired (t : NTable) (hg : GoodTable t.xs t.ys) (hfresh : t.xsRev = [] ∧ t.ysRev = []) (ops : List NOp)
    (hp : ProperDomains ops) (a b : Rat) (hdom : t.domain = .ok (a, b)) :
    ∃ t', runWith NTable.rescaleRepaired ops t = .ok t' ∧
      Consistent t a b t' (finalDomain ops (a, b)).1 (finalDomain ops (a, b)).2 := by
  have h2 := hg.two
  obtain ⟨a', b', ga, gb⟩ := ends h2
  have hdom' : t.domain = .ok (a', b') := by unfold NTable.domain; rw [rd_of_getElem? ga, bind_ok, back_ok gb, bind_ok]
  rw [hdom] at hdom'
  cases hdom'
  have hab : a < b := by
    have := (dir_of_lt hg.x).mono 0 (t.xs.length - 1) _ _ (by omega) ga gb
    linarith
  have h0 : Inv t a b t a b := ⟨rfl, hg, ga, gb, fun x => by
    have : affine a b a b x = x := by
      have : b - a ≠ 0 := sub_ne_zero.2 (ne_of_gt hab)
      unfold affine; field_simp; ring
    rw [this]⟩
  suffices H : ∀ (ops : List NOp) (u : NTable) (c d : Rat), Inv t a b u c d → ProperDomains ops → CacheOk u →
      ∃ t', runWith NTable.rescaleRepaired ops u = .ok t' ∧ Consistent t a b t' (finalDomain ops (c, d)).1 (finalDomain ops (c, d)).2 from
    H ops t a b h0 hp (.inl hfresh.2)
  intro ops
  induction ops with
  | nil =>
    intro u c d hu _ hcase
    refine ⟨u, rfl, inv_domain hu, hu.eval, fun x y hxy => ?_⟩
    obtain ⟨t', e, _⟩ := inverse_ok hu.good (.inr hcase) hxy
    exact ⟨t', e⟩
  | cons op ops ih =>
    intro u c d hu hpd hcase
    have hpd' : ProperDomains ops := fun c d h => hpd c d (List.mem_cons_of_mem _ h)
    cases op with
    | inverse y =>
      obtain ⟨x, hx⟩ := eval_surj hu.good y
      obtain ⟨u', e, k1, k2, k3, k4⟩ := inverse_ok hu.good (.inr hcase) hx
      unfold runWith finalDomain
      rw [e, bind_ok]
      refine ih u' c d ⟨by rw [k2, hu.ys], by rw [k1, k2]; exact hu.good, by rw [k1]; exact hu.first, by rw [k1]; exact hu.last, ?_⟩ hpd' (k3 hcase)
      intro x
      rw [← hu.eval x]
      unfold NTable.eval
      rw [k1, k2]
    | rescale c' d' =>
      obtain ⟨e, hu'⟩ := inv_rescale hab hu (hpd c' d' (List.mem_cons_self ..))
      unfold runWith finalDomain NTable.rescaleRepaired
      rw [e, bind_ok, bind_ok]
      exact ih _ c' d' ⟨hu'.ys, hu'.good, hu'.first, hu'.last, hu'.eval⟩ hpd' (.inl rfl)

/-- **C18 is false as implemented** for decreasing ordinates: after an `inverse` call, `rescaleDomain`
leaves the cached reversed abscissas stale, and later inverses are those of the old domain.  Here
`f(0)=1, f(1)=0` is rescaled to `[0,2]`: `f(2) = 0`, but `inverse(0) = 1`. -/
theorem inverse_after_rescale_wrong :
    ∃ t t', NTable.new [0, 1] [1, 0] = .ok t ∧ GoodTable t.xs t.ys ∧
      runWith NTable.rescaleDomain [.inverse 0, .rescale 0 2] t = .ok t' ∧ t'.eval 2 = .ok 0 ∧
      ∃ t'', t'.inverse 0 = .ok (1, t'') := by
  refine ⟨⟨[0, 1], [1, 0], [], []⟩, ⟨[0, 2], [1, 0], [1, 0], [0, 1]⟩, by decide +kernel, ⟨by decide +kernel, .inr (by decide +kernel), rfl, by simp⟩,
    by decide +kernel, by decide +kernel, ⟨[0, 2], [1, 0], [1, 0], [0, 1]⟩, by decide +kernel⟩

/-- The constructor accepts exactly nondecreasing abscissas; in particular it accepts repeated ones, for
which evaluation divides by zero. -/
theorem new_accepts_iff (xs ys : List Rat) : (∃ t, NTable.new xs ys = .ok t) ↔ xs.Pairwise (· ≤ ·) := by
  unfold NTable.new
  rw [← isNondecreasing_iff]
  cases isNondecreasing xs with
  | true => simp [check]
  | false => simp [check]

theorem repeated_abscissas_divide_by_zero :
    ∃ t, NTable.new [0, 1, 1] [0, 1, 2] = .ok t ∧ t.eval 1 = .error .nonFinite :=
  ⟨⟨[0, 1, 1], [0, 1, 2], [], []⟩, by decide +kernel, by decide +kernel⟩

/-- The hypotheses are met by a decreasing table with a rescale followed by an inverse. -/
example : GoodTable [0, 1, 4] [5, 3, -2] ∧ ProperDomains [.rescale 0 2, .inverse 3] ∧
    NoRescaleAfterInverse [.rescale 0 2, .inverse 3] ∧ finalDomain [.rescale 0 2, .inverse 3] (0, 4) = (0, 2) := by
  refine ⟨⟨by decide +kernel, .inr (by decide +kernel), rfl, by simp⟩, ?_, ?_, rfl⟩
  · intro c d h
    simp at h
    obtain ⟨rfl, rfl⟩ := h
    decide +kernel
  · unfold NoRescaleAfterInverse
    simp

end Opm.Interp
