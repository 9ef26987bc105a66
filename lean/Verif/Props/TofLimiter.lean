import Verif.Proofs.TofLimiter
/-!
# Properties of the limiter of the time of flight
-/

namespace Opm.TofLimiter
open Opm
open _root_.Opm.DGBasis (Usable value count Kind)

variable {s : Solver} {faces nodes : Nat → List Nat} {a : List Rat}

/-- The bound of a cell: no value shall be below it.  The largest number that is not above the values at the other side of upstream faces, or zero if that is larger or there are no such faces. -/
def IsBound (s : Solver) (faces nodes : Nat → List Nat) (m : Method) (a : List Rat) (c : Nat) (M : Rat) : Prop :=
  0 ≤ M ∧ ((∃ f ∈ faces c, Upstream s faces c f) → (∀ B, Below s faces nodes m a c B → B ≤ M) ∧ (M = 0 ∨ Below s faces nodes m a c M)) ∧ ((∀ f ∈ faces c, ¬ Upstream s faces c f) → M = 0)

theorem settle_bound {m : Method} {c : Nat} {r : Minima} (p : Found s faces nodes m a c (faces c) r) : IsBound s faces nodes m a c (settle r).up := by
  unfold settle IsBound
  have key : ∀ B, B ≤ r.up ↔ Below s faces nodes m a c B := p.up
  by_cases h0 : r.num = 0
  · have hn := p.num.1 h0
    simp only [h0, ↓reduceIte, lt_irrefl]
    exact ⟨le_refl _, fun ⟨f, hf, hu⟩ => absurd hu (hn f hf), fun _ => trivial⟩
  · have hne : ¬ ∀ f ∈ faces c, ¬ Upstream s faces c f := fun w => h0 (p.num.2 w)
    rw [if_neg h0]
    by_cases h1 : r.up < 0
    · rw [if_pos h1]
      exact ⟨le_refl _, fun _ => ⟨fun B hB => by have := (key B).2 hB; dsimp only; linarith, Or.inl rfl⟩, fun _ => rfl⟩
    · rw [if_neg h1]
      exact ⟨not_lt.1 h1, fun _ => ⟨fun B hB => (key B).2 hB, Or.inr ((key _).1 (le_refl _))⟩, fun w => absurd w hne⟩

theorem settle_here {m : Method} {c : Nat} {r : Minima} (p : Found s faces nodes m a c (faces c) r) (hu : ∃ f ∈ faces c, Upstream s faces c f) : (settle r).here = r.here := by
  obtain ⟨f, hf, hu⟩ := hu
  have h0 : r.num ≠ 0 := fun w => p.num.1 w f hf hu
  unfold settle
  rw [if_neg h0]
  dsimp only
  split <;> rfl

theorem bound_unique {m : Method} {c : Nat} {M N : Rat} (h1 : IsBound s faces nodes m a c M) (h2 : IsBound s faces nodes m a c N) : M = N := by
  by_cases hu : ∃ f ∈ faces c, Upstream s faces c f
  · obtain ⟨a1, b1⟩ := h1.2.1 hu
    obtain ⟨a2, b2⟩ := h2.2.1 hu
    refine le_antisymm ?_ ?_
    · rcases b1 with q | q
      · rw [q]; exact h2.1
      · exact a2 _ q
    · rcases b2 with q | q
      · rw [q]; exact h1.1
      · exact a1 _ q
  · have hn : ∀ f ∈ faces c, ¬ Upstream s faces c f := fun f hf w => hu ⟨f, hf, w⟩
    rw [h1.2.2 hn, h2.2.2 hn]

/-- The limiter refuses every basis that is not of degree 1. -/
theorem degree_refused (s : Solver) (m : Method) (c : Nat) (a tof : List Rat) (h : s.basis.degree ≠ 1) : applyLimiter s m c a tof = .error .thrown := by
  cases m <;> simp [applyLimiter, applyMinUpwindLimiter, h]

/-- Only the coefficients of the cell are changed. -/
theorem only_the_cell (h : Ready s faces nodes a) (m : Method) {c : Nat} (hc : c < s.nc) {tof t : List Rat} (hl : s.nb * s.nc ≤ tof.length) (hs : Same s c a tof) (e : applyLimiter s m c a tof = .ok t) :
    t.length = tof.length ∧ ∀ k, (k < s.nb * c ∨ s.nb * (c + 1) ≤ k) → t.getD k 0 = tof.getD k 0 := by
  obtain ⟨r, p, q | q | q | q⟩ := apply_cases h m hc hl hs
  · obtain ⟨_, t', e', w⟩ := q
    rw [e] at e'
    cases e'
    exact ⟨w.len, w.rest⟩
  · rw [e] at q
    simp at q
  · obtain ⟨-, -, -, e'⟩ := q
    rw [e] at e'
    cases e'
    exact ⟨rfl, fun _ _ => rfl⟩
  · obtain ⟨-, -, L, -, -, ⟨-, e'⟩ | ⟨-, t', e', w⟩⟩ := q
    · rw [e] at e'
      cases e'
      exact ⟨rfl, fun _ _ => rfl⟩
    · rw [e] at e'
      cases e'
      exact ⟨w.len, w.rest⟩

/-- The full claim: after the call, no value of the cell at a corner is below the bound. -/
def Limits (s : Solver) (faces nodes : Nat → List Nat) (m : Method) (a : List Rat) (c : Nat) (t : List Rat) : Prop :=
  ∀ M, IsBound s faces nodes m a c M → ∀ f ∈ faces c, ∀ n ∈ nodes f, M ≤ at' s t c n

/-- After a call that returns, the values at all corners of the cell are at least the bound: if there is an upstream face, and the basis is that of bounded total degree or the average was not below the bound.
Missing: cells without upstream face, see `no_upstream_untouched`, and the multilinear basis with an average below the bound, see `multilin_flat`. -/
theorem limited_partial (h : Ready s faces nodes a) (m : Method) {c : Nat} (hc : c < s.nc) {tof t : List Rat} (hl : s.nb * s.nc ≤ tof.length) (hs : Same s c a tof) (e : applyLimiter s m c a tof = .ok t)
    (hu : ∃ f ∈ faces c, Upstream s faces c f) (hk : s.basis.kind = .totalDegree ∨ ∀ M, IsBound s faces nodes m a c M → M ≤ avg s a c) : Limits s faces nodes m a c t := by
  have hval : ∀ x, value s.basis c (tof.drop (s.nb * c)) x = value s.basis c (a.drop (s.nb * c)) x := value_same _ _ (same_drop hs)
  have havg : avg s tof c = avg s a c := hval _
  obtain ⟨r, p, q⟩ := apply_cases h m hc hl hs
  have hb := settle_bound p
  have hh := settle_here p hu
  intro M hM f hf n hn
  rw [bound_unique hM hb]
  have hge : (settle r).here ≤ at' s a c n := by rw [hh]; exact ((p.here r.here).1 (le_refl _)).2 f hf n hn
  rcases q with q | q | q | q
  · obtain ⟨hlt, t', e', w⟩ := q
    rw [e] at e'
    cases e'
    rcases hk with k | k
    · have := w.vals (s.coords.drop (s.basis.dim * n))
      rw [k] at this
      dsimp only at this
      unfold at'
      rw [this, havg]
      linarith
    · exact absurd (k _ hb) (not_le.2 hlt)
  · rw [e] at q
    simp at q
  · obtain ⟨-, q1, q2, e'⟩ := q
    rw [e] at e'
    cases e'
    unfold at' at hge ⊢
    rw [hval]
    linarith
  · obtain ⟨q1, q2, L, hL, h0, ⟨h1, e'⟩ | ⟨h1, t', e', w⟩⟩ := q
    · rw [e] at e'
      cases e'
      have : (settle r).up ≤ (settle r).here := by
        rcases lt_or_gt_of_ne q2 with z | z
        · exact le_of_lt (lt_of_le_of_lt q1 z)
        · rw [hL, le_div_iff₀ (by linarith)] at h1
          linarith
      unfold at' at hge ⊢
      rw [hval]
      linarith
    · rw [e] at e'
      cases e'
      have := w.vals (s.coords.drop (s.basis.dim * n))
      unfold at' at hge ⊢
      rw [this, hval, havg, add_zero]
      have h2 : L * ((settle r).here - avg s a c) = (settle r).up - avg s a c := by
        rw [hL, div_mul_eq_mul_div, div_eq_iff (sub_ne_zero.2 q2)]
        ring
      have h3 := mul_le_mul_of_nonneg_left (sub_le_sub_right hge (avg s a c)) h0
      linarith

/-- The average is kept if it is not below the bound, and every value keeps its side of the average. -/
theorem average_kept (h : Ready s faces nodes a) (m : Method) {c : Nat} (hc : c < s.nc) {tof t : List Rat} (hl : s.nb * s.nc ≤ tof.length) (hs : Same s c a tof) (e : applyLimiter s m c a tof = .ok t)
    (hk : ∀ M, IsBound s faces nodes m a c M → M ≤ avg s a c) :
    avg s t c = avg s a c ∧ ∃ L, 0 ≤ L ∧ L ≤ 1 ∧ ∀ x, value s.basis c (t.drop (s.nb * c)) x = avg s a c + L * (value s.basis c (a.drop (s.nb * c)) x - avg s a c) := by
  have hval : ∀ x, value s.basis c (tof.drop (s.nb * c)) x = value s.basis c (a.drop (s.nb * c)) x := value_same _ _ (same_drop hs)
  have havg : avg s tof c = avg s a c := hval _
  suffices hw : ∃ L, 0 ≤ L ∧ L ≤ 1 ∧ ∀ x, value s.basis c (t.drop (s.nb * c)) x = avg s a c + L * (value s.basis c (a.drop (s.nb * c)) x - avg s a c) by
    refine ⟨?_, hw⟩
    obtain ⟨L, -, -, w⟩ := hw
    have := w (s.basis.centroids.drop (s.basis.dim * c))
    unfold avg at *
    rw [this, sub_self, mul_zero, add_zero]
  obtain ⟨r, p, q⟩ := apply_cases h m hc hl hs
  have hb := settle_bound p
  have hone : t = tof → ∃ L, 0 ≤ L ∧ L ≤ 1 ∧ ∀ x, value s.basis c (t.drop (s.nb * c)) x = avg s a c + L * (value s.basis c (a.drop (s.nb * c)) x - avg s a c) := by
    rintro rfl
    exact ⟨1, zero_le_one, le_refl _, fun x => by rw [hval]; ring⟩
  rcases q with q | q | q | q
  · exact absurd (hk _ hb) (not_le.2 q.1)
  · rw [e] at q
    simp at q
  · obtain ⟨-, -, -, e'⟩ := q
    rw [e] at e'
    exact hone (Except.ok.inj e')
  · obtain ⟨-, -, L, -, h0, ⟨-, e'⟩ | ⟨h1, t', e', w⟩⟩ := q
    · rw [e] at e'
      exact hone (Except.ok.inj e')
    · rw [e] at e'
      cases e'
      refine ⟨L, h0, le_of_lt h1, fun x => ?_⟩
      rw [w.vals, hval, havg]
      ring

/-- With the basis of bounded total degree, a cell whose average is below the bound gets the bound as value everywhere. -/
theorem raised_to_bound (h : Ready s faces nodes a) (m : Method) {c : Nat} (hc : c < s.nc) {tof : List Rat} (hl : s.nb * s.nc ≤ tof.length) (hs : Same s c a tof) (hk : s.basis.kind = .totalDegree)
    {M : Rat} (hM : IsBound s faces nodes m a c M) (ha : avg s a c < M) : ∃ t, applyLimiter s m c a tof = .ok t ∧ ∀ x, value s.basis c (t.drop (s.nb * c)) x = M := by
  have havg : avg s tof c = avg s a c := value_same _ _ (same_drop hs) _
  obtain ⟨r, p, q⟩ := apply_cases h m hc hl hs
  have hb := bound_unique (settle_bound p) hM
  rw [hb] at q
  rcases q with q | q | q | q
  · obtain ⟨-, t, e, w⟩ := q
    refine ⟨t, e, fun x => ?_⟩
    rw [w.vals, hk, havg]
    ring
  · exact absurd q.1 (not_le.2 ha)
  · exact absurd q.1 (not_le.2 ha)
  · exact absurd q.1 (not_le.2 ha)

/-- With the multilinear basis, such a cell stays below the bound: its value is raised by the missing amount divided by the number of basis functions only. -/
theorem multilin_flat (h : Ready s faces nodes a) (m : Method) {c : Nat} (hc : c < s.nc) {tof : List Rat} (hl : s.nb * s.nc ≤ tof.length) (hs : Same s c a tof) (hk : s.basis.kind = .multilin)
    {M : Rat} (hM : IsBound s faces nodes m a c M) (ha : avg s a c < M) :
    ∃ t, applyLimiter s m c a tof = .ok t ∧ ∀ x, value s.basis c (t.drop (s.nb * c)) x = avg s a c + (M - avg s a c) / 2 ^ s.basis.dim ∧ value s.basis c (t.drop (s.nb * c)) x < M := by
  have havg : avg s tof c = avg s a c := value_same _ _ (same_drop hs) _
  have hnb : s.nb = 2 ^ s.basis.dim := by rw [Solver.nb, hk, h.linear]; rfl
  obtain ⟨r, p, q⟩ := apply_cases h m hc hl hs
  have hb := bound_unique (settle_bound p) hM
  rw [hb] at q
  rcases q with q | q | q | q
  · obtain ⟨-, t, e, w⟩ := q
    refine ⟨t, e, fun x => ?_⟩
    have hv : value s.basis c (t.drop (s.nb * c)) x = avg s a c + (M - avg s a c) / 2 ^ s.basis.dim := by
      rw [w.vals, hk, havg]
      dsimp only
      rw [hnb]
      push_cast
      ring
    refine ⟨hv, ?_⟩
    rw [hv]
    have h2 : (1 : Rat) < 2 ^ s.basis.dim := by
      rcases (DGBasis.cases_of (h.usable c hc)).2 with q | q | q <;> rw [q] <;> norm_num
    have h3 : (M - avg s a c) / 2 ^ s.basis.dim < M - avg s a c := div_lt_self (by linarith) h2
    linarith
  · exact absurd q.1 (not_le.2 ha)
  · exact absurd q.1 (not_le.2 ha)
  · exact absurd q.1 (not_le.2 ha)

/-- A cell in which no corner value is below the bound, and not all corner values are above the average, stays as it is whenever the call returns. -/
theorem good_cell_untouched (h : Ready s faces nodes a) (m : Method) {c : Nat} (hc : c < s.nc) {tof t : List Rat} (hl : s.nb * s.nc ≤ tof.length) (hs : Same s c a tof) (e : applyLimiter s m c a tof = .ok t)
    (hu : ∃ f ∈ faces c, Upstream s faces c f) {M : Rat} (hM : IsBound s faces nodes m a c M) (hM' : M ≤ huge) (hg : ∀ f ∈ faces c, ∀ n ∈ nodes f, M ≤ at' s a c n)
    (hex : ∃ f ∈ faces c, ∃ n ∈ nodes f, at' s a c n ≤ avg s a c) : t = tof := by
  obtain ⟨r, p, q⟩ := apply_cases h m hc hl hs
  have hb := bound_unique (settle_bound p) hM
  have hh := settle_here p hu
  have h1 : M ≤ r.here := (p.here M).2 ⟨hM', hg⟩
  have h2 : r.here ≤ avg s a c := by
    obtain ⟨f, hf, n, hn, w⟩ := hex
    exact le_trans (((p.here r.here).1 (le_refl _)).2 f hf n hn) w
  rw [hb, hh] at q
  rcases q with q | q | q | q
  · exact absurd q.1 (not_lt.2 (le_trans h1 h2))
  · rw [e] at q
    simp at q
  · obtain ⟨-, -, -, e'⟩ := q
    rw [e] at e'
    exact Except.ok.inj e'
  · obtain ⟨-, q2, L, hL, -, ⟨-, e'⟩ | ⟨w, -⟩⟩ := q
    · rw [e] at e'
      exact Except.ok.inj e'
    · rw [hL, div_lt_one (sub_pos.2 (lt_of_le_of_ne h2 (Ne.symm q2)))] at w
      linarith

/-- The call returns if there is an upstream face and some corner value is below the average. -/
theorem returns (h : Ready s faces nodes a) (m : Method) {c : Nat} (hc : c < s.nc) {tof : List Rat} (hl : s.nb * s.nc ≤ tof.length) (hs : Same s c a tof) (hu : ∃ f ∈ faces c, Upstream s faces c f)
    (hex : ∃ f ∈ faces c, ∃ n ∈ nodes f, at' s a c n < avg s a c) : ∃ t, applyLimiter s m c a tof = .ok t := by
  obtain ⟨r, p, q⟩ := apply_cases h m hc hl hs
  have hh := settle_here p hu
  have h2 : r.here < avg s a c := by
    obtain ⟨f, hf, n, hn, w⟩ := hex
    exact lt_of_le_of_lt (((p.here r.here).1 (le_refl _)).2 f hf n hn) w
  rw [hh] at q
  rcases q with q | q | q | q
  · exact ⟨_, q.2.choose_spec.1⟩
  · have hne : avg s a c - r.here ≠ 0 := by linarith
    rw [quot, if_neg hne] at q
    have h0 : ¬ 0 ≤ (avg s a c - (settle r).up) / (avg s a c - r.here) := by simpa [Quot.nonneg] using q.2.1
    exact absurd (div_nonneg (by linarith [q.1]) (by linarith)) h0
  · exact ⟨_, q.2.2.2⟩
  · obtain ⟨-, -, L, -, -, ⟨-, e'⟩ | ⟨-, t, e', -⟩⟩ := q
    · exact ⟨_, e'⟩
    · exact ⟨_, e'⟩

/-- A cell without upstream face and with positive average is not changed at all, however far below zero its values reach. -/
theorem no_upstream_untouched (h : Ready s faces nodes a) (m : Method) {c : Nat} (hc : c < s.nc) {tof : List Rat} (hl : s.nb * s.nc ≤ tof.length) (hs : Same s c a tof)
    (hu : ∀ f ∈ faces c, ¬ Upstream s faces c f) (ha : 0 < avg s a c) : applyLimiter s m c a tof = .ok tof := by
  obtain ⟨r, p, q⟩ := apply_cases h m hc hl hs
  have h0 : settle r = ⟨0, 0, 0⟩ := by
    have := p.num.2 hu
    simp [settle, this]
  rw [h0] at q
  dsimp only at q
  rcases q with q | q | q | q
  · exact absurd q.1 (not_lt.2 (le_of_lt ha))
  · rw [sub_zero, quot, if_neg (ne_of_gt ha), div_self (ne_of_gt ha)] at q
    simp [Quot.nonneg] at q
  · exact q.2.2.2
  · obtain ⟨-, -, L, hL, -, ⟨-, e'⟩ | ⟨w, -⟩⟩ := q
    · exact e'
    · rw [hL, sub_zero, div_self (ne_of_gt ha)] at w
      exact absurd w (lt_irrefl _)

/-- The call fails for a constant solution that equals its bound: the multiplier is zero divided by zero. -/
theorem constant_at_bound_fails (h : Ready s faces nodes a) (m : Method) {c : Nat} (hc : c < s.nc) {tof : List Rat} (hl : s.nb * s.nc ≤ tof.length) (hs : Same s c a tof)
    (hu : ∃ f ∈ faces c, Upstream s faces c f) (hM : IsBound s faces nodes m a c (avg s a c)) (hn : ∃ f ∈ faces c, nodes f ≠ []) (hM' : avg s a c ≤ huge)
    (hconst : ∀ f ∈ faces c, ∀ n ∈ nodes f, at' s a c n = avg s a c) : applyLimiter s m c a tof = .error .assertFail := by
  obtain ⟨r, p, q⟩ := apply_cases h m hc hl hs
  have hb := bound_unique (settle_bound p) hM
  have hh : (settle r).here = avg s a c := by
    rw [settle_here p hu]
    refine le_antisymm ?_ ?_
    · obtain ⟨f, hf, w⟩ := hn
      obtain ⟨n, hn⟩ := List.exists_mem_of_ne_nil _ w
      rw [← hconst f hf n hn]
      exact ((p.here r.here).1 (le_refl _)).2 f hf n hn
    · exact (p.here _).2 ⟨hM', fun f hf n hn => le_of_eq (hconst f hf n hn).symm⟩
  rw [hb, hh] at q
  rcases q with q | q | q | q
  · exact absurd q.1 (lt_irrefl _)
  · exact q.2.2
  · exact absurd q.2.2.1 (lt_irrefl _)
  · exact absurd rfl q.2.1

/-- Arrays that agree in a cell give the same values there. -/
theorem at_same {c : Nat} {t u : List Rat} (h : Same s c t u) (n : Nat) : at' s u c n = at' s t c n := value_same _ _ (same_drop h) _

/-- Applied to all cells at once: after a call that returns, the values at the corners of every cell with an upstream face are at least the bound computed from the solution before the call, if the basis is that of
bounded total degree or the average was not below the bound; beyond the coefficients of the cells nothing changes. -/
theorem simultaneous_limits_partial (h : Ready s faces nodes a) (m : Method) {t : List Rat} (e : simultaneous s m a = .ok t) (hp : 0 < s.nc) :
    t.length = a.length ∧ (∀ k, s.nb * s.nc ≤ k → t.getD k 0 = a.getD k 0) ∧
      ∀ c, c < s.nc → (∃ f ∈ faces c, Upstream s faces c f) → (s.basis.kind = .totalDegree ∨ ∀ M, IsBound s faces nodes m a c M → M ≤ avg s a c) → Limits s faces nodes m a c t := by
  unfold simultaneous at e
  rw [DGBasis.numBasis_eq (h.usable 0 hp), bind_ok, show count s.basis.kind s.basis.degree s.basis.dim = s.nb from rfl] at e
  have hsz := h.size
  have hlen : (a.take (s.nb * s.nc)).length = s.nb * s.nc := by simp; omega
  have key : ∀ n, n ≤ s.nc → ∀ w, loop n (fun c t => applyLimiter s m c a t) (a.take (s.nb * s.nc)) = .ok w → w.length = s.nb * s.nc ∧
      (∀ c, n ≤ c → c < s.nc → Same s c a w) ∧
      ∀ c, c < n → (∃ f ∈ faces c, Upstream s faces c f) → (s.basis.kind = .totalDegree ∨ ∀ M, IsBound s faces nodes m a c M → M ≤ avg s a c) → Limits s faces nodes m a c w := by
    intro n
    induction n with
    | zero =>
      intro _ w ew
      cases ew
      refine ⟨hlen, fun c _ hc i hi => ?_, fun c hc => by omega⟩
      have := block_le (n := s.nb) hc
      simp only [List.getD_eq_getElem?_getD, List.getElem?_take]
      rw [if_pos (by omega)]
    | succ n ih =>
      intro hn w ew
      rw [loop_succ] at ew
      cases e1 : loop n (fun c t => applyLimiter s m c a t) (a.take (s.nb * s.nc)) with
      | error x =>
        rw [e1] at ew
        cases ew
      | ok u =>
        rw [e1, bind_ok] at ew
        obtain ⟨lu, su, bu⟩ := ih (by omega) u e1
        have hsn := su n (le_refl _) (by omega)
        obtain ⟨lw, rw'⟩ := only_the_cell h m (by omega) (by omega) hsn ew
        have hsame : ∀ c, c ≠ n → Same s c u w := by
          intro c hcn i hi
          refine rw' _ ?_
          rcases Nat.lt_or_gt_of_ne hcn with q | q
          · left
            have := block_le (n := s.nb) q
            omega
          · right
            have := Nat.mul_le_mul_left s.nb (show n + 1 ≤ c by omega)
            omega
        refine ⟨by omega, fun c h1 h2 i hi => ?_, fun c hc hu hk => ?_⟩
        · rw [hsame c (by omega) i hi]
          exact su c (by omega) h2 i hi
        · rcases Nat.lt_succ_iff_lt_or_eq.1 hc with q | q
          · intro M hM f hf k hk'
            rw [at_same (hsame c (by omega))]
            exact bu c q hu hk M hM f hf k hk'
          · subst q
            exact limited_partial h m (by omega) (by omega) hsn ew hu hk
  cases e1 : loop s.nc (fun c t => applyLimiter s m c a t) (a.take (s.nb * s.nc)) with
  | error x =>
    rw [e1] at e
    cases e
  | ok w =>
    rw [e1, bind_ok] at e
    obtain ⟨lw, -, bw⟩ := key s.nc (le_refl _) w e1
    cases e
    have hsame : ∀ c, c < s.nc → Same s c w (w ++ a.drop (s.nb * s.nc)) := by
      intro c hc i hi
      have := block_le (n := s.nb) hc
      simp only [List.getD_eq_getElem?_getD]
      rw [List.getElem?_append_left (by omega)]
    refine ⟨by simp [lw]; omega, fun k hk => ?_, fun c hc hu hk M hM f hf n hn => ?_⟩
    · simp only [List.getD_eq_getElem?_getD]
      rw [List.getElem?_append_right (by omega), List.getElem?_drop, lw, show s.nb * s.nc + (k - s.nb * s.nc) = k by omega]
    · rw [at_same (hsame c hc)]
      exact bw c hc hu hk M hM f hf n hn

/-- One cell after the other: after a call that returns, in every cell of the order that has an upstream face, values at corners are not negative, if the basis is that of bounded total degree. -/
theorem postProcess_nonneg_partial (h : Ready s faces nodes a) (m : Method) (hk : s.basis.kind = .totalDegree) {seq : List Nat} (hseq : ∀ c ∈ seq, c < s.nc) (hnd : seq.Nodup) {t : List Rat} (e : postProcess s m seq a = .ok t) :
    t.length = a.length ∧ ∀ c ∈ seq, (∃ f ∈ faces c, Upstream s faces c f) → ∀ f ∈ faces c, ∀ n ∈ nodes f, 0 ≤ at' s t c n := by
  unfold postProcess at e
  have e' : seq.foldlM (fun t cell => applyLimiter s m cell t t) a = .ok t := by
    by_cases q : decide (seq.length = s.nc) = true
    · rw [check, if_pos q] at e
      exact e
    · rw [check, if_neg q] at e
      cases e
  clear e
  induction seq generalizing a with
  | nil =>
    cases e'
    exact ⟨rfl, fun c hc => absurd hc (by simp)⟩
  | cons x xs ih =>
    rw [List.foldlM_cons] at e'
    cases e1 : applyLimiter s m x a a with
    | error _ =>
      rw [e1] at e'
      cases e'
    | ok u =>
      rw [e1, bind_ok] at e'
      have hx := hseq x (by simp)
      have hself : Same s x a a := fun _ _ => rfl
      obtain ⟨lu, -⟩ := only_the_cell h m hx h.size hself e1
      have hr : Ready s faces nodes u := { h with size := by rw [lu]; exact h.size }
      obtain ⟨lt, bt⟩ := ih hr (fun c hc => hseq c (by simp [hc])) (List.nodup_cons.1 hnd).2 e'
      refine ⟨by omega, fun c hc hu f hf n hn => ?_⟩
      rcases List.mem_cons.1 hc with q | q
      · subst q
        have hkeep : ∀ (l : List Nat) (u t : List Rat), s.nb * s.nc ≤ u.length → (∀ d ∈ l, d < s.nc) → c ∉ l → Ready s faces nodes u → l.foldlM (fun t cell => applyLimiter s m cell t t) u = .ok t → Same s c u t := by
          intro l
          induction l with
          | nil =>
            intro u t _ _ _ _ ef
            cases ef
            exact fun _ _ => rfl
          | cons y ys ihy =>
            intro u t hl hys hcy hru ef
            rw [List.foldlM_cons] at ef
            cases e2 : applyLimiter s m y u u with
            | error _ =>
              rw [e2] at ef
              cases ef
            | ok v =>
              rw [e2, bind_ok] at ef
              obtain ⟨lv, rv⟩ := only_the_cell hru m (hys y (by simp)) hl (fun _ _ => rfl) e2
              have hrv : Ready s faces nodes v := { hru with size := by rw [lv]; exact hl }
              have h1 := ihy v t (by omega) (fun d hd => hys d (by simp [hd])) (fun w => hcy (by simp [w])) hrv ef
              intro i hi
              rw [h1 i hi]
              refine rv _ ?_
              rcases Nat.lt_or_gt_of_ne (show c ≠ y from fun w => hcy (by simp [w])) with q | q
              · left
                have := block_le (n := s.nb) q
                omega
              · right
                have := Nat.mul_le_mul_left s.nb (show y + 1 ≤ c by omega)
                omega
        have hsm := hkeep xs u t (by rw [lu]; exact h.size) (fun d hd => hseq d (by simp [hd])) (List.nodup_cons.1 hnd).1 hr e'
        rw [at_same hsm]
        obtain ⟨r, p, -⟩ := apply_cases h m hx h.size hself
        exact le_trans (settle_bound p).1 (limited_partial h m hx h.size hself e1 hu (Or.inl hk) _ (settle_bound p) f hf n hn)
      · exact bt c q hu f hf n hn

end Opm.TofLimiter
