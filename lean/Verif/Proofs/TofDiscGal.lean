import Verif.Spec.TofDiscGal
import Verif.Proofs.TofLimiter
import Verif.Proofs.Sums
/-!
# Lemmas about the discontinuous Galerkin method for the time of flight
-/

namespace Opm.TofDiscGal
open Opm Finset UniquePoints
open _root_.Opm.Geometry (RowOf entries entries_ok)
open _root_.Opm.DGBasis (Usable value count poly rel deriv rdG numBasis_eq)
open _root_.Opm.TofLimiter (out other outflow block_le)
open _root_.Opm.Hybsys (Upd loop_upd)

variable {P : Problem} {cell : Nat} {a : List Rat} {fs : List Nat} {cp cq : List (List Rat × Rat)} {fp : Nat → List (List Rat × Rat)} {v : List Rat → List Rat}

theorem sum_map_neg {β : Type} (l : List β) (g : β → Rat) : (l.map (fun x => -g x)).sum = -(l.map g).sum := by
  induction l with
  | nil => simp
  | cons x l ih => simp only [List.map_cons, List.sum_cons, ih]; ring

theorem getD_zeros (n k : Nat) : (List.replicate n (0 : Rat)).getD k 0 = 0 := by
  rw [List.getD_eq_getElem?_getD, List.getElem?_replicate]
  split <;> rfl

/-- A fold in which each element adds something to each entry. -/
theorem foldlM_sum {σ β ρ : Type} {l : List β} {f : σ → β → M σ} {s : σ} (Ok : σ → Prop) (V : σ → ρ → Rat) (g : β → ρ → Rat) (h0 : Ok s)
    (hs : ∀ x t, x ∈ l → Ok t → ∃ t', f t x = .ok t' ∧ Ok t' ∧ ∀ r, V t' r = V t r + g x r) :
    ∃ t, l.foldlM f s = .ok t ∧ Ok t ∧ ∀ r, V t r = V s r + (l.map (fun x => g x r)).sum := by
  obtain ⟨t, e, h1, h2⟩ := foldlM_inv (l := l) (f := f) (s := s) (fun done t => Ok t ∧ ∀ r, V t r = V s r + (done.map (fun x => g x r)).sum) ⟨h0, by simp⟩ (by
    rintro done x rest t e ⟨h1, h2⟩
    obtain ⟨t', e', h3, h4⟩ := hs x t (by rw [e]; simp) h1
    refine ⟨t', e', h3, fun r => ?_⟩
    rw [h4, h2]
    simp [add_assoc])
  exact ⟨t, e, h1, h2⟩

/-- A loop which adds to the first `n` entries. -/
theorem addVec {n : Nat} {f : Nat → List Rat → M (List Rat)} {s : List Rat} (v : Nat → Rat) (h : n ≤ s.length) (hf : ∀ i t, i < n → t.length = s.length → f i t = addAt t i (v i)) :
    ∃ t, loop n f s = .ok t ∧ t.length = s.length ∧ ∀ i : Fin n, t.getD i 0 = s.getD i 0 + v i := by
  obtain ⟨t, e, l, p, -⟩ := loop_upd (n := n) (a := s) (f := f) 0 (fun i => s.getD i 0 + v i) (by omega) (fun i t hi ht hv => by
    rw [Nat.zero_add] at hv ⊢
    rw [hf i t hi ht, addAt_ok (by omega), hv, wr_ok (by omega)])
  exact ⟨t, e, l, fun i => by have := p i i.2; rwa [Nat.zero_add] at this⟩

/-- A double loop which adds to the entries of a square matrix. -/
theorem addMat {n : Nat} {F : Nat → Nat → List Rat → M (List Rat)} {s : List Rat} (w : Nat → Nat → Rat) (h : n * n ≤ s.length)
    (hf : ∀ j i t, j < n → i < n → t.length = s.length → ∃ t', F j i t = .ok t' ∧ t'.length = t.length ∧ t'.getD (j * n + i) 0 = t.getD (j * n + i) 0 + w i j ∧ ∀ k, k ≠ j * n + i → t'.getD k 0 = t.getD k 0) :
    ∃ t, loop n (fun j a => loop n (fun i a => F j i a) a) s = .ok t ∧ t.length = s.length ∧ ∀ r : Fin n × Fin n, t.getD (r.2 * n + r.1) 0 = s.getD (r.2 * n + r.1) 0 + w r.1 r.2 := by
  obtain ⟨t, e, l, p, -⟩ := loop_blocks (n := n) (s := s) (f := fun j a => loop n (fun i a => F j i a) a) 0 n (fun j i => s.getD (j * n + i) 0 + w i j) (by
    intro j t hj ht hv
    simp only [Nat.zero_add] at hv ⊢
    obtain ⟨u, eu, lu, pu, qu⟩ := loop_inv (n := n) (s := t) (f := fun i a => F j i a)
      (fun m u => u.length = s.length ∧ (∀ i, i < n → u.getD (j * n + i) 0 = t.getD (j * n + i) 0 + if i < m then w i j else 0) ∧ ∀ k, (∀ i, i < n → j * n + i ≠ k) → u.getD k 0 = t.getD k 0)
      ⟨ht, by simp, fun _ _ => rfl⟩ (by
        rintro m u hm ⟨l1, p1, q1⟩
        obtain ⟨u', e', l', p', q'⟩ := hf j m u hj hm l1
        refine ⟨u', e', by omega, fun i hi => ?_, fun k hk => ?_⟩
        · by_cases q : i = m
          · subst q
            rw [p', p1 i hi, if_neg (by omega), if_pos (by omega), add_zero]
          · rw [q' _ (by omega), p1 i hi]
            congr 1
            by_cases z : i < m
            · rw [if_pos z, if_pos (by omega)]
            · rw [if_neg z, if_neg (by omega)]
        · rw [q' k (fun z => hk m hm z.symm), q1 k hk])
    exact ⟨u, eu, lu, fun i hi => by rw [pu i hi, if_pos hi, hv i hi], qu⟩)
  refine ⟨t, e, l, fun r => ?_⟩
  have := p r.2 r.1 r.2.2 r.1.2
  rwa [Nat.zero_add] at this

/-- `eval` into a buffer of zeros. -/
theorem evalZero (h : Usable P.basis cell) {x : List Rat} (hx : P.basis.dim ≤ x.length) :
    ∃ g, DGBasis.eval P.basis cell x (List.replicate P.nb 0) = .ok g ∧ g.length = P.nb ∧ ∀ i, i < P.nb → g.getD i 0 = phi P cell i x := by
  obtain ⟨g, e, l, p, -⟩ := DGBasis.eval_ok h (f := List.replicate P.nb 0) hx (by simp [Problem.nb])
  refine ⟨g, e, by simpa using l, fun i hi => ?_⟩
  have := p i hi
  rwa [Nat.zero_add] at this

theorem outflow_eq (h : CellData P cell fs cp cq fp v) {f : Nat} (hf : f ∈ fs) : outflow P.solver cell f = .ok (out P.solver cell f, other P.solver cell f) := by
  obtain ⟨h1, h2⟩ := h.sides f hf
  unfold outflow out other
  have e1 : rd P.solver.faceCells (2 * f) = .ok (P.solver.faceCells.getD (2 * f) 0) := by
    show rd P.faceCells (2 * f) = .ok (P.faceCells.getD (2 * f) 0)
    rw [rd_ok (by omega)]; simp [show 2 * f < P.faceCells.length by omega]
  have e2 : rd P.solver.faceCells (2 * f + 1) = .ok (P.solver.faceCells.getD (2 * f + 1) 0) := by
    show rd P.faceCells (2 * f + 1) = .ok (P.faceCells.getD (2 * f + 1) 0)
    rw [rd_ok h2]; simp [h2]
  have e3 : rd P.solver.flux f = .ok (P.solver.flux.getD f 0) := rdG h1
  rw [e1, bind_ok, e3, bind_ok]
  split
  · rw [e2, bind_ok]
  · rfl

theorem rhsCell_ok (h : CellData P cell fs cp cq fp v) {s : List Rat} (hs : s.length = P.nb) :
    ∃ t, rhsCell P P.nb cell s = .ok t ∧ t.length = P.nb ∧ ∀ i : Fin P.nb, t.getD i 0 = s.getD i 0 + P.porevolume.getD cell 0 / P.G.cellVolumes.getD cell 0 * integral cp (phi P cell i) := by
  unfold rhsCell
  rw [h.cellPts, bind_ok]
  obtain ⟨t, e, l, p⟩ := foldlM_sum (l := cp) (s := s) (f := rhsPoint P P.nb cell) (fun t => t.length = P.nb) (fun t (i : Fin P.nb) => t.getD i 0)
    (fun x i => P.porevolume.getD cell 0 / P.G.cellVolumes.getD cell 0 * (x.2 * phi P cell i x.1)) hs (by
      intro x t hx ht
      obtain ⟨g, eg, lg, pg⟩ := evalZero (h.usable cell h.inside) (h.cpLong x hx)
      unfold rhsPoint
      rw [eg, bind_ok, rdG h.porevolume, bind_ok, rdG h.volume.1, bind_ok]
      obtain ⟨u, eu, lu, pu⟩ := addVec (n := P.nb) (s := t) (f := fun j r => do
        let b ← rd g j
        let q ← fdiv (x.2 * b * P.porevolume.getD cell 0) (P.G.cellVolumes.getD cell 0)
        addAt r j q) (fun j => P.porevolume.getD cell 0 / P.G.cellVolumes.getD cell 0 * (x.2 * phi P cell j x.1)) (by omega) (fun i r hi hr => by
          rw [rdG (a := g) (by omega), bind_ok, fdiv, if_neg h.volume.2, bind_ok, pg i hi]
          congr 1
          ring)
      exact ⟨u, eu, by omega, pu⟩)
  refine ⟨t, e, l, fun i => ?_⟩
  rw [p i, integral, ← List.sum_map_mul_left]

theorem other_lt (h : CellData P cell fs cp cq fp v) {f : Nat} (hf : f ∈ fs) (ho : ¬ other P.solver cell f < 0) : (other P.solver cell f).toNat < P.nc := by
  obtain ⟨h1, h2⟩ := h.cells f hf
  have h3 : other P.solver cell f = P.faceCells.getD (2 * f + 1) 0 ∨ other P.solver cell f = P.faceCells.getD (2 * f) 0 := by
    unfold other
    split
    · exact .inl rfl
    · exact .inr rfl
  omega

theorem rhsFace_ok (h : CellData P cell fs cp cq fp v) (hsz : P.nb * P.nc ≤ a.length) {f : Nat} (hf : f ∈ fs) {s : List Rat} (hs : s.length = P.nb) :
    ∃ t, rhsFace P P.nb cell a s f = .ok t ∧ t.length = P.nb ∧ ∀ i : Fin P.nb, t.getD i 0 = s.getD i 0 + -(if out P.solver cell f < 0 ∧ 0 ≤ other P.solver cell f then
      normalVelocity P cell f * integral (fp f) (fun x => tof P a (other P.solver cell f).toNat x * phi P cell i x) else 0) := by
  unfold rhsFace
  rw [outflow_eq h hf, bind_ok]
  dsimp only
  by_cases q1 : 0 ≤ out P.solver cell f
  · rw [if_pos q1]
    exact ⟨s, rfl, hs, fun i => by rw [if_neg (fun z => by linarith [z.1])]; ring⟩
  rw [if_neg q1]
  by_cases q2 : other P.solver cell f < 0
  · rw [if_pos q2]
    exact ⟨s, rfl, hs, fun i => by rw [if_neg (fun z => by omega)]; ring⟩
  have ho := other_lt h hf q2
  rw [if_neg q2, rdG (h.area f hf).1, bind_ok, fdiv, if_neg (h.area f hf).2, bind_ok, h.facePts f hf, bind_ok]
  obtain ⟨t, e, l, p⟩ := foldlM_sum (l := fp f) (s := s) (f := rhsFacePoint P P.nb cell (other P.solver cell f).toNat a (out P.solver cell f / P.G.faceAreas.getD f 0)) (fun t => t.length = P.nb) (fun t (i : Fin P.nb) => t.getD i 0)
    (fun x i => (-normalVelocity P cell f) * (x.2 * (tof P a (other P.solver cell f).toNat x.1 * phi P cell i x.1))) hs (by
      intro x t hx ht
      have hb := block_le (n := P.nb) ho
      obtain ⟨g, eg, lg, pg⟩ := evalZero (h.usable cell h.inside) (h.fpLong f hf x hx)
      obtain ⟨w, ew, lw, iw⟩ := DGBasis.eval_inner (h.usable _ ho) (x := x.1) (f := List.replicate P.nb 0) (c := a.drop (P.nb * (other P.solver cell f).toNat)) (h.fpLong f hf x hx) (by simp [Problem.nb])
        (by simp only [List.length_drop]; unfold Problem.nb at *; omega)
      unfold rhsFacePoint
      rw [eg, bind_ok, ew, bind_ok, iw, bind_ok]
      obtain ⟨u, eu, lu, pu⟩ := addVec (n := P.nb) (s := t) (f := fun j r => do
        let b ← rd g j
        addAt r j (-(x.2 * value P.basis (other P.solver cell f).toNat (a.drop (P.nb * (other P.solver cell f).toNat)) x.1 * (out P.solver cell f / P.G.faceAreas.getD f 0) * b)))
        (fun j => (-normalVelocity P cell f) * (x.2 * (tof P a (other P.solver cell f).toNat x.1 * phi P cell j x.1))) (by omega) (fun i r hi hr => by
          rw [rdG (a := g) (by omega), bind_ok, pg i hi]
          congr 1
          unfold normalVelocity tof
          ring)
      exact ⟨u, eu, by omega, pu⟩)
  refine ⟨t, e, l, fun i => ?_⟩
  rw [p i, if_pos ⟨by linarith, by omega⟩, integral, List.sum_map_mul_left]
  ring

theorem assembleRhs_ok (h : CellData P cell fs cp cq fp v) (hsz : P.nb * P.nc ≤ a.length) : ∃ t, assembleRhs P P.nb cell fs a = .ok t ∧ t.length = P.nb ∧ ∀ i, i < P.nb → t.getD i 0 = rhs P cell a fs cp fp i := by
  obtain ⟨r, er, lr, pr⟩ := rhsCell_ok h (s := List.replicate P.nb 0) (by simp)
  obtain ⟨t, e, l, p⟩ := foldlM_sum (l := fs) (s := r) (f := rhsFace P P.nb cell a) (fun t => t.length = P.nb) (fun t (i : Fin P.nb) => t.getD i 0)
    (fun f i => -(if out P.solver cell f < 0 ∧ 0 ≤ other P.solver cell f then normalVelocity P cell f * integral (fp f) (fun x => tof P a (other P.solver cell f).toNat x * phi P cell i x) else 0)) lr
    (fun f t hf ht => rhsFace_ok h hsz hf ht)
  refine ⟨t, ?_, l, fun i hi => ?_⟩
  · unfold assembleRhs
    rw [er, bind_ok, e]
  · have h1 := p ⟨i, hi⟩
    have h2 := pr ⟨i, hi⟩
    dsimp only at h1 h2
    rw [h1, h2, rhs, sum_map_neg, sub_eq_add_neg, getD_zeros, zero_add]

theorem addAt_effect {t : List Rat} {k : Nat} (hk : k < t.length) (x : Rat) : ∃ t', addAt t k x = .ok t' ∧ t'.length = t.length ∧ t'.getD k 0 = t.getD k 0 + x ∧ ∀ j, j ≠ k → t'.getD j 0 = t.getD j 0 := by
  refine ⟨_, addAt_ok hk x, by simp, ?_, fun j hj => ?_⟩
  · rw [getD_addAt hk, if_pos rfl]
  · rw [getD_addAt hk, if_neg hj, add_zero]

theorem mat_index {n j i : Nat} (hj : j < n) (hi : i < n) : j * n + i < n * n := by
  calc j * n + i < j * n + n := by omega
    _ = (j + 1) * n := by ring
    _ ≤ n * n := Nat.mul_le_mul_right _ hj

theorem jacPoint_ok (h : CellData P cell fs cp cq fp v) {p : List Rat × Rat} (hp : p ∈ cq) {s : List Rat} (hs : s.length = P.nb * P.nb) :
    ∃ t, jacPoint P P.nb cell s p = .ok t ∧ t.length = P.nb * P.nb ∧ ∀ r : Fin P.nb × Fin P.nb, t.getD (r.2 * P.nb + r.1) 0 = s.getD (r.2 * P.nb + r.1) 0 + -(p.2 * (phi P cell r.2 p.1 * along P cell r.1 p.1 (v p.1))) := by
  have hu := h.usable cell h.inside
  obtain ⟨g, eg, lg, pg⟩ := evalZero hu (h.cqLong p hp)
  obtain ⟨w, ew, lw, pw, -⟩ := DGBasis.evalGrad_ok hu (x := p.1) (g := List.replicate (P.nb * P.basis.dim) 0) (h.cqLong p hp) (by simp [Problem.nb])
  obtain ⟨ev, lv⟩ := h.vel p hp
  unfold jacPoint
  rw [eg, bind_ok, ew, bind_ok, ev, bind_ok]
  obtain ⟨t, e, l, q⟩ := addMat (n := P.nb) (s := s) (F := fun j i a => loop P.basis.dim (fun d a => do
    let b ← rd g j
    let z ← rd w (P.basis.dim * i + d)
    let y ← rd (v p.1) d
    addAt a (j * P.nb + i) (-(p.2 * b * z * y))) a) (fun i j => -(p.2 * (phi P cell j p.1 * along P cell i p.1 (v p.1)))) (by omega) (by
      intro j i t hj hi ht
      have hk := mat_index hj hi
      obtain ⟨u, eu, ⟨lu, qu⟩, pu⟩ := loop_sum (n := P.basis.dim) (s := t) (f := fun d a => do
        let b ← rd g j
        let z ← rd w (P.basis.dim * i + d)
        let y ← rd (v p.1) d
        addAt a (j * P.nb + i) (-(p.2 * b * z * y))) (fun u => u.length = t.length ∧ ∀ k, k ≠ j * P.nb + i → u.getD k 0 = t.getD k 0) (fun u (_ : Unit) => u.getD (j * P.nb + i) 0)
        (fun d _ => -(p.2 * phi P cell j p.1 * deriv P.basis i d (rel P.basis cell p.1) * (v p.1).getD d 0)) ⟨rfl, fun _ _ => rfl⟩ (by
          rintro d u hd ⟨l1, q1⟩
          have hw : P.basis.dim * i + d < w.length := by
            rw [lw, List.length_replicate, Nat.mul_comm P.nb]
            have := block_le (n := P.basis.dim) hi
            omega
          rw [rdG (a := g) (by omega), bind_ok, rdG hw, bind_ok, rdG (a := v p.1) (by omega), bind_ok]
          obtain ⟨u', e', l', p', q'⟩ := addAt_effect (t := u) (k := j * P.nb + i) (by omega) (-(p.2 * g.getD j 0 * w.getD (P.basis.dim * i + d) 0 * (v p.1).getD d 0))
          refine ⟨u', e', ⟨by omega, fun k hk => by rw [q' k hk, q1 k hk]⟩, fun _ => ?_⟩
          rw [p', pg j hj, Nat.mul_comm P.basis.dim i, pw i d hi hd])
      refine ⟨u, eu, lu, ?_, qu⟩
      rw [pu ()]
      congr 1
      unfold along
      rw [mul_sum, mul_sum, ← sum_neg_distrib]
      exact sum_congr rfl (fun d _ => by ring))
  exact ⟨t, e, by omega, q⟩

theorem massPoint_ok (hu : Usable P.basis cell) {p : List Rat × Rat} (hp : P.basis.dim ≤ p.1.length) (z : Rat) {s : List Rat} (hs : s.length = P.nb * P.nb) :
    ∃ t, massPoint P P.nb cell z s p = .ok t ∧ t.length = P.nb * P.nb ∧ ∀ r : Fin P.nb × Fin P.nb, t.getD (r.2 * P.nb + r.1) 0 = s.getD (r.2 * P.nb + r.1) 0 + z * (p.2 * (phi P cell r.2 p.1 * phi P cell r.1 p.1)) := by
  obtain ⟨g, eg, lg, pg⟩ := evalZero hu hp
  unfold massPoint
  rw [eg, bind_ok]
  obtain ⟨t, e, l, q⟩ := addMat (n := P.nb) (s := s) (F := fun j i a => do
    let bi ← rd g i
    let bj ← rd g j
    addAt a (j * P.nb + i) (p.2 * bi * z * bj)) (fun i j => z * (p.2 * (phi P cell j p.1 * phi P cell i p.1))) (by omega) (by
      intro j i t hj hi ht
      have hk := mat_index hj hi
      rw [rdG (a := g) (by omega), bind_ok, rdG (a := g) (by omega), bind_ok]
      obtain ⟨u', e', l', p', q'⟩ := addAt_effect (t := t) (k := j * P.nb + i) (by omega) (p.2 * g.getD i 0 * z * g.getD j 0)
      refine ⟨u', e', l', ?_, q'⟩
      rw [p', pg i hi, pg j hj]
      ring)
  exact ⟨t, e, by omega, q⟩

theorem massPoints_ok (hu : Usable P.basis cell) {ps : List (List Rat × Rat)} (hp : ∀ p ∈ ps, P.basis.dim ≤ p.1.length) (z : Rat) {s : List Rat} (hs : s.length = P.nb * P.nb) :
    ∃ t, ps.foldlM (massPoint P P.nb cell z) s = .ok t ∧ t.length = P.nb * P.nb ∧
      ∀ r : Fin P.nb × Fin P.nb, t.getD (r.2 * P.nb + r.1) 0 = s.getD (r.2 * P.nb + r.1) 0 + z * integral ps (fun x => phi P cell r.2 x * phi P cell r.1 x) := by
  obtain ⟨t, e, l, p⟩ := foldlM_sum (l := ps) (s := s) (f := massPoint P P.nb cell z) (fun t => t.length = P.nb * P.nb) (fun t (r : Fin P.nb × Fin P.nb) => t.getD (r.2 * P.nb + r.1) 0)
    (fun x r => z * (x.2 * (phi P cell r.2 x.1 * phi P cell r.1 x.1))) hs (fun x t hx ht => massPoint_ok hu (hp x hx) z ht)
  refine ⟨t, e, l, fun r => ?_⟩
  rw [p r, integral, List.sum_map_mul_left]

theorem assembleJac_ok (h : CellData P cell fs cp cq fp v) : ∃ t, assembleJac P P.nb cell fs = .ok t ∧ ∀ i j, i < P.nb → j < P.nb → t.getD (j * P.nb + i) 0 = lhs P cell fs cq fp v (phi P cell j) i := by
  have hu := h.usable cell h.inside
  obtain ⟨t1, e1, l1, p1⟩ := foldlM_sum (l := cq) (s := List.replicate (P.nb * P.nb) 0) (f := jacPoint P P.nb cell) (fun t => t.length = P.nb * P.nb) (fun t (r : Fin P.nb × Fin P.nb) => t.getD (r.2 * P.nb + r.1) 0)
    (fun x r => -(x.2 * (phi P cell r.2 x.1 * along P cell r.1 x.1 (v x.1)))) (by simp) (fun x t hx ht => jacPoint_ok h hx ht)
  obtain ⟨t2, e2, l2, p2⟩ := foldlM_sum (l := fs) (s := t1) (f := jacFace P P.nb cell) (fun t => t.length = P.nb * P.nb) (fun t (r : Fin P.nb × Fin P.nb) => t.getD (r.2 * P.nb + r.1) 0)
    (fun f r => if 0 < out P.solver cell f then normalVelocity P cell f * integral (fp f) (fun x => phi P cell r.2 x * phi P cell r.1 x) else 0) l1 (by
      intro f t hf ht
      unfold jacFace
      rw [outflow_eq h hf, bind_ok]
      dsimp only
      by_cases q : out P.solver cell f ≤ 0
      · rw [if_pos q]
        exact ⟨t, rfl, ht, fun r => by rw [if_neg (not_lt.2 q), add_zero]⟩
      · rw [if_neg q, rdG (h.area f hf).1, bind_ok, fdiv, if_neg (h.area f hf).2, bind_ok, h.facePts f hf, bind_ok]
        obtain ⟨u, eu, lu, pu⟩ := massPoints_ok hu (h.fpLong f hf) (out P.solver cell f / P.G.faceAreas.getD f 0) ht
        exact ⟨u, eu, lu, fun r => by rw [if_pos (not_le.1 q), pu r]; rfl⟩)
  have h3 : ∃ t3, jacSink P P.nb cell t2 = .ok t3 ∧ ∀ r : Fin P.nb × Fin P.nb, t3.getD (r.2 * P.nb + r.1) 0 = t2.getD (r.2 * P.nb + r.1) 0 +
      if P.source.getD cell 0 < 0 then -P.source.getD cell 0 / P.G.cellVolumes.getD cell 0 * integral cq (fun x => phi P cell r.2 x * phi P cell r.1 x) else 0 := by
    unfold jacSink
    rw [rdG h.source, bind_ok]
    by_cases q : P.source.getD cell 0 < 0
    · rw [if_pos q, rdG h.volume.1, bind_ok, fdiv, if_neg h.volume.2, bind_ok, h.cellPts2, bind_ok]
      obtain ⟨u, eu, lu, pu⟩ := massPoints_ok hu h.cqLong (-P.source.getD cell 0 / P.G.cellVolumes.getD cell 0) l2
      exact ⟨u, eu, fun r => by rw [if_pos q, pu r]⟩
    · rw [if_neg q]
      exact ⟨t2, rfl, fun r => by rw [if_neg q, add_zero]⟩
  obtain ⟨t3, e3, p3⟩ := h3
  refine ⟨t3, ?_, fun i j hi hj => ?_⟩
  · unfold assembleJac jacCell
    rw [h.cellPts2, bind_ok, e1, bind_ok, e2, bind_ok, e3]
  · have q1 := p1 (⟨i, hi⟩, ⟨j, hj⟩)
    have q2 := p2 (⟨i, hi⟩, ⟨j, hj⟩)
    have q3 := p3 (⟨i, hi⟩, ⟨j, hj⟩)
    dsimp only at q1 q2 q3
    rw [q3, q2, q1, lhs, integral, sum_map_neg]
    rw [getD_zeros, zero_add]
    rfl

/-- The left-hand side is linear in the function. -/
theorem lhs_sum (c : Nat → Rat) (n i : Nat) (g : Nat → List Rat → Rat) :
    lhs P cell fs cq fp v (fun x => ∑ j ∈ range n, c j * g j x) i = ∑ j ∈ range n, lhs P cell fs cq fp v (g j) i * c j := by
  have hint : ∀ (ps : List (List Rat × Rat)) (w : List Rat → Rat), integral ps (fun x => (∑ j ∈ range n, c j * g j x) * w x) = ∑ j ∈ range n, integral ps (fun x => g j x * w x) * c j := by
    intro ps w
    unfold integral
    induction ps with
    | nil => simp
    | cons p ps ih =>
      simp only [List.map_cons, List.sum_cons, add_mul, sum_add_distrib, ih]
      congr 1
      rw [sum_mul, mul_sum]
      exact sum_congr rfl (fun j _ => by ring)
  unfold lhs
  simp only [hint, add_mul, sum_add_distrib]
  congr 1
  · congr 1
    · rw [← sum_neg_distrib]
      exact sum_congr rfl (fun j _ => by ring)
    · induction fs with
      | nil => simp
      | cons f fs ih =>
        simp only [List.map_cons, List.sum_cons, add_mul, sum_add_distrib, ih]
        congr 1
        split
        · rw [mul_sum]
          exact sum_congr rfl (fun j _ => by ring)
        · simp
  · split
    · rw [mul_sum]
      exact sum_congr rfl (fun j _ => by ring)
    · simp

end Opm.TofDiscGal
