import Verif.Spec.TofLimiter
import Verif.Proofs.DGBasis
import Verif.Props.GeometryArrays
import Mathlib.Tactic.Positivity
import Mathlib.Tactic.FieldSimp
/-!
# Lemmas about the limiter of the time of flight
-/

namespace Opm.TofLimiter
open Opm
open _root_.Opm.Geometry (RowOf entries entries_ok)
open _root_.Opm.DGBasis (Usable value count centre rdG numBasis_eq)

variable {s : Solver} {faces nodes : Nat → List Nat} {a : List Rat}

theorem outflow_ok (h : Ready s faces nodes a) {c f : Nat} (hc : c < s.nc) (hf : f ∈ faces c) : outflow s c f = .ok (out s c f, other s c f) := by
  obtain ⟨h1, h2⟩ := h.sides c f hc hf
  unfold outflow out other
  have e1 : rd s.faceCells (2 * f) = .ok (s.faceCells.getD (2 * f) 0) := by rw [rd_ok (by omega)]; simp [show 2 * f < s.faceCells.length by omega]
  have e2 : rd s.faceCells (2 * f + 1) = .ok (s.faceCells.getD (2 * f + 1) 0) := by rw [rd_ok (by omega)]; simp [h2]
  rw [e1, bind_ok, rdG h1, bind_ok]
  split
  · rw [e2, bind_ok]
  · rfl

theorem total_ok (h : Ready s faces nodes a) {c : Nat} (hc : c < s.nc) : totalFlux s c = .ok (total s faces c) := by
  unfold totalFlux
  rw [entries_ok (h.faceRow c hc), bind_ok]
  obtain ⟨r, er, p1, p2⟩ := foldlM_inv (l := faces c) (s := ((0 : Rat), (0 : Rat))) (f := fun (r : Rat × Rat) f => do
    let q ← outflow s c f
    if q.1 < 0 then .ok (r.1 + q.1, r.2) else .ok (r.1, r.2 + q.1))
    (fun l r => -r.1 = (l.map (fun f => max 0 (-out s c f))).sum ∧ r.2 = (l.map (fun f => max 0 (out s c f))).sum) ⟨by simp, by simp⟩ (by
      rintro l x rest t e ⟨p1, p2⟩
      rw [outflow_ok h hc (by rw [e]; simp), bind_ok]
      dsimp only
      by_cases q : out s c x < 0
      · rw [if_pos q]
        refine ⟨_, rfl, ?_, ?_⟩
        · simp only [List.map_append, List.sum_append, List.map_cons, List.map_nil, List.sum_cons, List.sum_nil]
          rw [← p1, max_eq_right (by linarith)]
          ring
        · simp only [List.map_append, List.sum_append, List.map_cons, List.map_nil, List.sum_cons, List.sum_nil]
          rw [← p2, max_eq_left (by linarith)]
          ring
      · rw [if_neg q]
        refine ⟨_, rfl, ?_, ?_⟩
        · simp only [List.map_append, List.sum_append, List.map_cons, List.map_nil, List.sum_cons, List.sum_nil]
          rw [← p1, max_eq_left (by linarith)]
          ring
        · simp only [List.map_append, List.sum_append, List.map_cons, List.map_nil, List.sum_cons, List.sum_nil]
          rw [← p2, max_eq_right (by linarith)]
          ring)
  rw [er, bind_ok, p1, p2]
  rfl

theorem block_le {n N c : Nat} (h : c < N) : n * c + n ≤ n * N := by
  calc n * c + n = n * (c + 1) := by ring
    _ ≤ n * N := Nat.mul_le_mul_left _ h

theorem node_ok (h : Ready s faces nodes a) {c n : Nat} (hc : c < s.nc) (hn : s.basis.dim * n + s.basis.dim ≤ s.coords.length) : nodeValue s s.nb a c n = .ok (at' s a c n) := by
  have := block_le (n := s.nb) hc
  have hs := h.size
  obtain ⟨g, e, _, i⟩ := DGBasis.eval_inner (h.usable c hc) (x := s.coords.drop (s.basis.dim * n)) (f := List.replicate s.nb 0) (c := a.drop (s.nb * c)) (by simp; omega) (by simp [Solver.nb])
    (by simp only [List.length_drop]; unfold Solver.nb at *; omega)
  unfold nodeValue
  rw [e, bind_ok, i]
  rfl

theorem minCorner_ok (h : Ready s faces nodes a) {c c' f : Nat} (hc : c < s.nc) (hc' : c' < s.nc) (hf : f ∈ faces c') :
    ∃ m, minCornerVal s a c f = .ok m ∧ ∀ B, B ≤ m ↔ B ≤ huge ∧ ∀ n ∈ nodes f, B ≤ at' s a c n := by
  unfold minCornerVal
  rw [numBasis_eq (h.usable c hc), bind_ok, entries_ok (h.nodeRow c' f hc' hf), bind_ok]
  exact foldlM_inv (l := nodes f) (fun l m => ∀ B, B ≤ m ↔ B ≤ huge ∧ ∀ n ∈ l, B ≤ at' s a c n) (by simp) (by
    intro l x rest t e p
    have := node_ok h hc (h.coords c' f x hc' hf (by rw [e]; simp))
    rw [Solver.nb] at this
    rw [this, bind_ok]
    refine ⟨_, rfl, fun B => ?_⟩
    rw [le_min_iff, p B]
    simp only [List.mem_append, List.mem_singleton]
    constructor
    · rintro ⟨⟨q1, q2⟩, q3⟩
      exact ⟨q1, fun n hn => by rcases hn with hn | rfl; exacts [q2 n hn, q3]⟩
    · rintro ⟨q1, q2⟩
      exact ⟨⟨q1, fun n hn => q2 n (Or.inl hn)⟩, q2 x (Or.inr rfl)⟩)

theorem rel_centroid (b : DGBasis.Basis) (c d : Nat) : DGBasis.rel b c (b.centroids.drop (b.dim * c)) d = 0 := by
  unfold DGBasis.rel
  simp [List.getD_eq_getElem?_getD]

theorem average_ok' (h : Ready s faces nodes a) {c : Nat} (hc : c < s.nc) : DGBasis.functionAverage s.basis (a.drop (s.nb * c)) = .ok (avg s a c) := by
  have := block_le (n := s.nb) hc
  have hs := h.size
  rw [DGBasis.average_eq (h.usable c hc) (by simp only [List.length_drop]; unfold Solver.nb at *; omega), avg, DGBasis.centre_eq (h.usable c hc) _ (fun d _ => rel_centroid _ _ d)]

theorem other_lt (h : Ready s faces nodes a) {c f : Nat} (hc : c < s.nc) (hf : f ∈ faces c) (ho : ¬ other s c f < 0) : (other s c f).toNat < s.nc := by
  have := h.cells c f hc hf
  unfold other at *
  split at * <;> omega

theorem upstream_ok (h : Ready s faces nodes a) (m : Method) {c f : Nat} (hc : c < s.nc) (hf : f ∈ faces c) :
    ∃ u, upstreamTof s (m = .minUpwindFace) a s.nb (other s c f) f = .ok u ∧ ∀ B, B ≤ huge → (B ≤ u ↔ ∀ v ∈ beyond s nodes m a c f, B ≤ v) := by
  unfold upstreamTof beyond
  by_cases ho : other s c f < 0
  · rw [if_neg (by omega), if_pos ho]
    exact ⟨0, rfl, by simp⟩
  · rw [if_pos (by omega), if_neg ho]
    have hl := other_lt h hc hf ho
    cases m with
    | minUpwindFace =>
      rw [if_pos (by decide)]
      obtain ⟨u, e, p⟩ := minCorner_ok h hl hc hf
      refine ⟨u, e, fun B hB => ?_⟩
      rw [p B]
      simp [hB]
    | minUpwindAverage =>
      rw [if_neg (by decide)]
      exact ⟨_, average_ok' h hl, by simp⟩

/-- The minima the loop over the faces finds. -/
structure Found (s : Solver) (faces nodes : Nat → List Nat) (m : Method) (a : List Rat) (c : Nat) (l : List Nat) (r : Minima) : Prop where
  up : ∀ B, B ≤ r.up ↔ B ≤ huge ∧ ∀ f ∈ l, Upstream s faces c f → ∀ v ∈ beyond s nodes m a c f, B ≤ v
  here : ∀ B, B ≤ r.here ↔ B ≤ huge ∧ ∀ f ∈ l, ∀ n ∈ nodes f, B ≤ at' s a c n
  num : r.num = 0 ↔ ∀ f ∈ l, ¬ Upstream s faces c f

theorem pass_ok (h : Ready s faces nodes a) (m : Method) {c : Nat} (hc : c < s.nc) :
    ∃ r, (faces c).foldlM (facePass s (m = .minUpwindFace) a s.nb c (total s faces c)) ⟨huge, huge, 0⟩ = .ok r ∧ Found s faces nodes m a c (faces c) r := by
  refine foldlM_inv (Found s faces nodes m a c) ⟨by simp, by simp, by simp⟩ (fun l x rest t e p => ?_)
  have hx : x ∈ faces c := by rw [e]; simp
  unfold facePass
  obtain ⟨mc, emc, pmc⟩ := minCorner_ok h hc hc hx
  rw [outflow_ok h hc hx, bind_ok, emc, bind_ok]
  have hhere : ∀ B, B ≤ min t.here mc ↔ B ≤ huge ∧ ∀ f ∈ l ++ [x], ∀ n ∈ nodes f, B ≤ at' s a c n := by
    intro B
    rw [le_min_iff, p.here B, pmc B]
    simp only [List.mem_append, List.mem_singleton]
    constructor
    · rintro ⟨⟨q1, q2⟩, -, q3⟩
      exact ⟨q1, fun f hf => by rcases hf with hf | rfl; exacts [q2 f hf, q3]⟩
    · rintro ⟨q1, q2⟩
      exact ⟨⟨q1, fun n hn => q2 n (Or.inl hn)⟩, q1, q2 x (Or.inr rfl)⟩
  have hiff : out s c x < -total s faces c * s.threshold ↔ Upstream s faces c x := by
    unfold Upstream
    constructor <;> intro q <;> linarith
  dsimp only
  by_cases q : Upstream s faces c x
  · rw [if_pos (hiff.2 q)]
    obtain ⟨u, eu, pu⟩ := upstream_ok h m hc hx
    rw [eu, bind_ok]
    refine ⟨_, rfl, fun B => ?_, hhere, ?_⟩
    · dsimp only
      rw [le_min_iff, p.up B]
      simp only [List.mem_append, List.mem_singleton]
      constructor
      · rintro ⟨⟨q1, q2⟩, q3⟩
        exact ⟨q1, fun f hf => by rcases hf with hf | rfl; exacts [q2 f hf, fun _ => (pu B q1).1 q3]⟩
      · rintro ⟨q1, q2⟩
        exact ⟨⟨q1, fun n hn => q2 n (Or.inl hn)⟩, (pu B q1).2 (q2 x (Or.inr rfl) q)⟩
    · dsimp only
      constructor
      · omega
      · intro w
        exact absurd q (w x (by simp))
  · rw [if_neg (fun w => q (hiff.1 w))]
    refine ⟨_, rfl, fun B => ?_, hhere, ?_⟩
    · dsimp only
      rw [p.up B]
      simp only [List.mem_append, List.mem_singleton]
      constructor
      · rintro ⟨q1, q2⟩
        exact ⟨q1, fun f hf w => by rcases hf with hf | rfl; exacts [q2 f hf w, absurd w q]⟩
      · rintro ⟨q1, q2⟩
        exact ⟨q1, fun n hn => q2 n (Or.inl hn)⟩
    · dsimp only
      rw [p.num]
      simp only [List.mem_append, List.mem_singleton]
      constructor
      · rintro w f (hf | rfl)
        exacts [w f hf, q]
      · exact fun w f hf => w f (Or.inl hf)

/-- The call, with the minima found. -/
theorem apply_eq (h : Ready s faces nodes a) (m : Method) {c : Nat} (hc : c < s.nc) (tof : List Rat) :
    ∃ r, Found s faces nodes m a c (faces c) r ∧ applyLimiter s m c a tof = (do
      let l ← multiplier s.basis (settle r).up (settle r).here (avg s a c) (tof.drop (s.nb * c))
      let t ← limit s.basis l
      .ok (tof.take (s.nb * c) ++ t)) := by
  obtain ⟨r, e, p⟩ := pass_ok h m hc
  refine ⟨r, p, ?_⟩
  have : applyLimiter s m c a tof = applyMinUpwindLimiter s (m = .minUpwindFace) c a tof := by cases m <;> rfl
  rw [this]
  unfold applyMinUpwindLimiter
  rw [if_neg (by rw [h.linear]; decide), numBasis_eq (h.usable c hc), bind_ok, total_ok h hc, bind_ok, entries_ok (h.faceRow c hc), bind_ok]
  rw [show count s.basis.kind s.basis.degree s.basis.dim = s.nb from rfl, e, bind_ok, average_ok' h hc, bind_ok]

/-- The function given by two arrays that agree in the coefficients of the cell. -/
theorem value_same (b : DGBasis.Basis) (c : Nat) {u v : List Rat} (h : ∀ i, i < count b.kind b.degree b.dim → u.getD i 0 = v.getD i 0) (x : List Rat) : value b c u x = value b c v x := by
  unfold value
  exact Finset.sum_congr rfl (fun i hi => by rw [h i (Finset.mem_range.1 hi)])

theorem same_drop {c : Nat} {t : List Rat} (h : Same s c a t) : ∀ i, i < count s.basis.kind s.basis.degree s.basis.dim → (t.drop (s.nb * c)).getD i 0 = (a.drop (s.nb * c)).getD i 0 := by
  intro i hi
  have := h i hi
  simp only [List.getD_eq_getElem?_getD, List.getElem?_drop] at this ⊢
  exact this

/-- What the call does to the values in the cell. -/
structure Effect (s : Solver) (c : Nat) (L raise : Rat) (tof t : List Rat) : Prop where
  len : t.length = tof.length
  rest : ∀ k, (k < s.nb * c ∨ s.nb * (c + 1) ≤ k) → t.getD k 0 = tof.getD k 0
  vals : ∀ x, value s.basis c (t.drop (s.nb * c)) x = L * (value s.basis c (tof.drop (s.nb * c)) x - avg s tof c) + avg s tof c + raise

theorem effect_of {c : Nat} {tof t u : List Rat} {L raise : Rat} (hl : s.nb * c ≤ tof.length) (lu : u.length = (tof.drop (s.nb * c)).length)
    (qu : ∀ k, s.nb ≤ k → u.getD k 0 = (tof.drop (s.nb * c)).getD k 0)
    (vu : ∀ x, value s.basis c u x = L * (value s.basis c (tof.drop (s.nb * c)) x - avg s tof c) + avg s tof c + raise) (e : t = tof.take (s.nb * c) ++ u) : Effect s c L raise tof t := by
  have hd : t.drop (s.nb * c) = u := by
    rw [e, List.drop_append_of_le_length (by simp; omega)]
    simp [List.drop_take]
  refine ⟨?_, fun k hk => ?_, by rw [hd]; exact vu⟩
  · rw [e]
    simp only [List.length_append, List.length_take, lu, List.length_drop]
    omega
  · rcases hk with hk | hk
    · rw [e]
      simp only [List.getD_eq_getElem?_getD]
      rw [List.getElem?_append_left (by simp; omega), List.getElem?_take, if_pos hk]
    · have hk' : s.nb * c + s.nb ≤ k := by
        have : s.nb * (c + 1) = s.nb * c + s.nb := by ring
        omega
      have := qu (k - s.nb * c) (by omega)
      rw [← hd] at this
      simp only [List.getD_eq_getElem?_getD, List.getElem?_drop] at this ⊢
      rw [show s.nb * c + (k - s.nb * c) = k by omega] at this
      exact this

/-- The four ways the call can go. -/
theorem apply_cases (h : Ready s faces nodes a) (m : Method) {c : Nat} (hc : c < s.nc) {tof : List Rat} (hl : s.nb * s.nc ≤ tof.length) (hs : Same s c a tof) :
    ∃ r, Found s faces nodes m a c (faces c) r ∧
      ((avg s a c < (settle r).up ∧ ∃ t, applyLimiter s m c a tof = .ok t ∧
          Effect s c 0 (match s.basis.kind with | .totalDegree => (settle r).up - avg s a c | .multilin => ((settle r).up - avg s a c) / s.nb) tof t) ∨
       ((settle r).up ≤ avg s a c ∧ (quot (avg s a c - (settle r).up) (avg s a c - (settle r).here)).nonneg = false ∧ applyLimiter s m c a tof = .error .assertFail) ∨
       ((settle r).up ≤ avg s a c ∧ avg s a c = (settle r).here ∧ (settle r).up < avg s a c ∧ applyLimiter s m c a tof = .ok tof) ∨
       ((settle r).up ≤ avg s a c ∧ avg s a c ≠ (settle r).here ∧ ∃ L, L = (avg s a c - (settle r).up) / (avg s a c - (settle r).here) ∧ 0 ≤ L ∧
          ((1 ≤ L ∧ applyLimiter s m c a tof = .ok tof) ∨ (L < 1 ∧ ∃ t, applyLimiter s m c a tof = .ok t ∧ Effect s c L 0 tof t)))) := by
  obtain ⟨r, p, e⟩ := apply_eq h m hc tof
  refine ⟨r, p, ?_⟩
  have hb := block_le (n := s.nb) hc
  have hu := h.usable c hc
  have hlen : count s.basis.kind s.basis.degree s.basis.dim ≤ (tof.drop (s.nb * c)).length := by
    simp only [List.length_drop]
    unfold Solver.nb at *
    omega
  have hcen : ∀ v : List Rat, value s.basis c v (s.basis.centroids.drop (s.basis.dim * c)) = centre s.basis v := fun v => DGBasis.centre_eq hu v (fun d _ => rel_centroid _ _ d)
  have havg : avg s tof c = avg s a c := value_same _ _ (same_drop hs) _
  have hlim : ∀ (L : Rat) (u : List Rat), count s.basis.kind s.basis.degree s.basis.dim ≤ u.length → L < 1 → ∃ w, limit s.basis (.fin L, u) = .ok w ∧ w.length = u.length ∧
      (∀ k, s.nb ≤ k → w.getD k 0 = u.getD k 0) ∧ ∀ x, value s.basis c w x = L * (value s.basis c u x - centre s.basis u) + centre s.basis u := by
    intro L u hu' hL
    obtain ⟨w, ew, lw, pw, qw⟩ := DGBasis.multiply_ok hu L hu'
    refine ⟨w, ?_, lw, fun k hk => qw k (fun i hi e => by unfold Solver.nb at hk; omega), DGBasis.value_multiply hu hu' ew⟩
    simp only [limit]
    rw [if_pos hL, ew]
  by_cases hlt : avg s a c < (settle r).up
  · refine Or.inl ⟨hlt, ?_⟩
    obtain ⟨u, eu, lu, pu, qu⟩ := DGBasis.addConstant_ok hu ((settle r).up - avg s a c) hlen
    have vu := DGBasis.value_add hu hlen eu
    obtain ⟨w, ew, lw, qw, vw⟩ := hlim 0 u (by rw [lu]; exact hlen) one_pos
    have em : multiplier s.basis (settle r).up (settle r).here (avg s a c) (tof.drop (s.nb * c)) = .ok (.fin 0, u) := by
      unfold multiplier
      rw [if_pos hlt, eu, bind_ok]
    rw [em, bind_ok, ew, bind_ok] at e
    refine ⟨_, e, effect_of (by omega) (by rw [lw, lu]) (fun k hk => ?_) (fun x => ?_) rfl⟩
    · rw [qw k hk]
      exact qu k (fun i hi e => by unfold Solver.nb at hk; omega)
    · rw [vw, zero_mul, zero_mul, zero_add, zero_add, ← hcen u, vu]
      rfl
  · have hle : (settle r).up ≤ avg s a c := not_lt.1 hlt
    by_cases hq : (quot (avg s a c - (settle r).up) (avg s a c - (settle r).here)).nonneg = true
    · have em : multiplier s.basis (settle r).up (settle r).here (avg s a c) (tof.drop (s.nb * c)) = .ok (quot (avg s a c - (settle r).up) (avg s a c - (settle r).here), tof.drop (s.nb * c)) := by
        unfold multiplier
        rw [if_neg hlt, hq]
        rfl
      rw [em, bind_ok] at e
      by_cases hh : avg s a c = (settle r).here
      · refine Or.inr (Or.inr (Or.inl ⟨hle, hh, ?_⟩))
        have hz : avg s a c - (settle r).here = 0 := by linarith
        have hpos : (settle r).up < avg s a c := by
          rcases hle.lt_or_eq with w | w
          · exact w
          · rw [quot, if_pos hz, if_neg (by linarith), if_neg (by linarith)] at hq
            cases hq
        refine ⟨hpos, ?_⟩
        rw [quot, if_pos hz, if_pos (by linarith)] at e
        simp only [limit, bind_ok, List.take_append_drop] at e
        exact e
      · refine Or.inr (Or.inr (Or.inr ⟨hle, hh, _, rfl, ?_⟩))
        have hz : avg s a c - (settle r).here ≠ 0 := fun w => hh (by linarith)
        rw [quot, if_neg hz] at e hq
        have h0 : 0 ≤ (avg s a c - (settle r).up) / (avg s a c - (settle r).here) := by simpa [Quot.nonneg] using hq
        refine ⟨h0, ?_⟩
        by_cases h1 : (avg s a c - (settle r).up) / (avg s a c - (settle r).here) < 1
        · obtain ⟨w, ew, lw, qw, vw⟩ := hlim _ (tof.drop (s.nb * c)) hlen h1
          rw [ew, bind_ok] at e
          refine Or.inr ⟨h1, _, e, effect_of (by omega) lw qw (fun x => ?_) rfl⟩
          rw [vw, ← hcen, add_zero]
          rfl
        · refine Or.inl ⟨not_lt.1 h1, ?_⟩
          simp only [limit] at e
          rw [if_neg h1, bind_ok, List.take_append_drop] at e
          exact e
    · refine Or.inr (Or.inl ⟨hle, by simpa using hq, ?_⟩)
      rw [e]
      unfold multiplier
      rw [if_neg hlt, check, if_neg hq]
      rfl

end Opm.TofLimiter
