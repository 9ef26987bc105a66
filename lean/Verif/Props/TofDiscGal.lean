import Verif.Proofs.TofDiscGal
import Verif.Props.TofLimiter
import Verif.Props.Tof
/-!
# C126: the discontinuous Galerkin method for the time of flight
-/

namespace Opm.TofDiscGal
open Opm Finset UniquePoints
open _root_.Opm.Geometry (RowOf entries entries_ok)
open _root_.Opm.DGBasis (Usable value count poly rel deriv rdG numBasis_eq)
open _root_.Opm.TofLimiter (out other outflow block_le Same value_same same_drop)
open _root_.Opm.CfsTpfa (Regular LapackOk)

variable {P : Problem} {cell : Nat} {a : List Rat} {fs : List Nat} {cp cq : List (List Rat × Rat)} {fp : Nat → List (List Rat × Rat)} {v : List Rat → List Rat}

theorem nb_pos (P : Problem) : 0 < P.nb := DGBasis.count_pos _ _ _

/-- The function of a cell is the sum of its coefficients times the basis functions. -/
theorem tof_sum (P : Problem) (a : List Rat) (cell : Nat) (x : List Rat) : tof P a cell x = ∑ j ∈ range P.nb, a.getD (P.nb * cell + j) 0 * phi P cell j x := by
  unfold tof value phi
  refine sum_congr rfl (fun j _ => ?_)
  rw [List.getD_eq_getElem?_getD, List.getElem?_drop, ← List.getD_eq_getElem?_getD]

theorem matrix_at {i j : Nat} (hi : i < P.nb) : matrix P cell fs cq fp v (j * P.nb + i) = lhs P cell fs cq fp v (phi P cell j) i := by
  unfold matrix
  rw [show (j * P.nb + i) / P.nb = j by rw [Nat.mul_comm, Nat.mul_add_div (nb_pos P), Nat.div_eq_of_lt hi, Nat.add_zero], Nat.mul_comm, Nat.mul_add_mod, Nat.mod_eq_of_lt hi]

theorem lhs_tof (a : List Rat) {i : Nat} (hi : i < P.nb) : lhs P cell fs cq fp v (tof P a cell) i = ∑ j ∈ range P.nb, matrix P cell fs cq fp v (j * P.nb + i) * a.getD (P.nb * cell + j) 0 := by
  rw [show tof P a cell = fun x => ∑ j ∈ range P.nb, a.getD (P.nb * cell + j) 0 * phi P cell j x from funext (tof_sum P a cell), lhs_sum]
  exact sum_congr rfl (fun j _ => by rw [matrix_at hi])

theorem regular_congr {n : Nat} {A B : Nat → Rat} (h : ∀ i j, i < n → j < n → A (j * n + i) = B (j * n + i)) (hA : Regular n A) : Regular n B := by
  intro w hw
  refine hA w (fun i hi => ?_)
  rw [← hw i hi]
  exact sum_congr rfl (fun j hj => by rw [h i j hi (mem_range.1 hj)])

/-- `solveLocal` after the assembly. -/
theorem local_ok (h : CellData P cell fs cp cq fp v) (hsz : P.nb * P.nc ≤ a.length) (hl : LapackOk P.lu) (hr : Regular P.nb (matrix P cell fs cq fp v)) :
    ∃ jac r t, assembleJac P P.nb cell fs = .ok jac ∧ assembleRhs P P.nb cell fs a = .ok r ∧ solveLocal P P.nb cell jac r a = .ok t ∧ t.length = a.length ∧
      (∀ k, (k < P.nb * cell ∨ P.nb * (cell + 1) ≤ k) → t.getD k 0 = a.getD k 0) ∧ ∀ i, i < P.nb → lhs P cell fs cq fp v (tof P t cell) i = rhs P cell a fs cp fp i := by
  obtain ⟨r, er, lr, pr⟩ := assembleRhs_ok h hsz
  obtain ⟨jac, ej, pj⟩ := assembleJac_ok h
  obtain ⟨s, es, ps⟩ := hl P.nb (fun k => jac.getD k 0) (regular_congr (fun i j hi hj => by rw [pj i j hi hj, matrix_at hi]) hr)
  have hb := block_le (n := P.nb) h.inside
  obtain ⟨t, et, lt, pt, qt⟩ := Hybsys.loop_upd (n := P.nb) (a := a) (f := fun i c => wr c (P.nb * cell + i) (s (fun k => r.getD k 0) i)) (P.nb * cell) (fun i => s (fun k => r.getD k 0) i) (by omega)
    (fun i t hi ht _ => by rw [wr_ok (by omega)])
  refine ⟨jac, r, t, ej, er, ?_, lt, fun k hk => qt k ?_, fun i hi => ?_⟩
  · unfold solveLocal
    rw [es]
    exact et
  · rw [Nat.mul_succ] at hk
    omega
  · rw [lhs_tof t hi, ← pr i hi, ← ps (fun k => r.getD k 0) i hi]
    exact sum_congr rfl (fun j hj => by rw [pt j (mem_range.1 hj), pj i j hi (mem_range.1 hj), matrix_at hi])

/-- **C126.**  `solveSingleCell` without the limiter: the new function of the cell solves the equations of the method for every basis function, and no other coefficient changes. -/
theorem solves (h : CellData P cell fs cp cq fp v) (hsz : P.nb * P.nc ≤ a.length) (hl : LapackOk P.lu) (hr : Regular P.nb (matrix P cell fs cq fp v)) (hn : P.limiter = none ∨ P.basis.degree = 0) :
    ∃ t, solveSingleCell P cell a = .ok t ∧ t.length = a.length ∧ (∀ k, (k < P.nb * cell ∨ P.nb * (cell + 1) ≤ k) → t.getD k 0 = a.getD k 0) ∧
      ∀ i, i < P.nb → lhs P cell fs cq fp v (tof P t cell) i = rhs P cell a fs cp fp i := by
  obtain ⟨jac, r, t, ej, er, et, lt, qt, pt⟩ := local_ok h hsz hl hr
  refine ⟨t, ?_, lt, qt, pt⟩
  unfold solveSingleCell
  rw [numBasis_eq (h.usable cell h.inside), bind_ok, entries_ok h.faceRow, bind_ok]
  change (assembleRhs P P.nb cell fs a >>= _) = _
  rw [er, bind_ok]
  change (assembleJac P P.nb cell fs >>= _) = _
  rw [ej, bind_ok]
  change (solveLocal P P.nb cell jac r a >>= _) = _
  rw [et, bind_ok]
  unfold finish
  rcases hn with q | q
  · rw [q]
  · rw [q]
    split <;> simp

/-- With the limiter the result is the limiter applied to that solution. -/
theorem solves_limited (h : CellData P cell fs cp cq fp v) (hsz : P.nb * P.nc ≤ a.length) (hl : LapackOk P.lu) (hr : Regular P.nb (matrix P cell fs cq fp v)) {m : TofLimiter.Method}
    (hm : P.limiter = some m) (hd : P.basis.degree = 1) :
    ∃ t, solveSingleCell P cell a = TofLimiter.applyLimiter P.solver m cell t t ∧ t.length = a.length ∧ (∀ k, (k < P.nb * cell ∨ P.nb * (cell + 1) ≤ k) → t.getD k 0 = a.getD k 0) ∧
      ∀ i, i < P.nb → lhs P cell fs cq fp v (tof P t cell) i = rhs P cell a fs cp fp i := by
  obtain ⟨jac, r, t, ej, er, et, lt, qt, pt⟩ := local_ok h hsz hl hr
  refine ⟨t, ?_, lt, qt, pt⟩
  unfold solveSingleCell
  rw [numBasis_eq (h.usable cell h.inside), bind_ok, entries_ok h.faceRow, bind_ok]
  change (assembleRhs P P.nb cell fs a >>= _) = _
  rw [er, bind_ok]
  change (assembleJac P P.nb cell fs >>= _) = _
  rw [ej, bind_ok]
  change (solveLocal P P.nb cell jac r a >>= _) = _
  rw [et, bind_ok]
  unfold finish
  rw [hm, hd]
  rfl

/-- The equations determine the coefficients. -/
theorem unique (hr : Regular P.nb (matrix P cell fs cq fp v)) {t u : List Rat} (h : ∀ i, i < P.nb → lhs P cell fs cq fp v (tof P t cell) i = lhs P cell fs cq fp v (tof P u cell) i) : Same P.solver cell t u := by
  intro i hi
  have := hr (fun j => u.getD (P.nb * cell + j) 0 - t.getD (P.nb * cell + j) 0) (fun i hi => by
    have h1 := h i hi
    rw [lhs_tof t hi, lhs_tof u hi] at h1
    simp only [mul_sub, sum_sub_distrib]
    rw [h1, sub_self]) i hi
  exact sub_eq_zero.1 this

/-- A failure of LAPACK is reported by an exception. -/
theorem singular_thrown (h : CellData P cell fs cp cq fp v) (hsz : P.nb * P.nc ≤ a.length) (hs : ∀ A, P.lu P.nb A = none) : solveSingleCell P cell a = .error .thrown := by
  obtain ⟨r, er, -, -⟩ := assembleRhs_ok h hsz
  obtain ⟨jac, ej, -⟩ := assembleJac_ok h
  unfold solveSingleCell
  rw [numBasis_eq (h.usable cell h.inside), bind_ok, entries_ok h.faceRow, bind_ok]
  change (assembleRhs P P.nb cell fs a >>= _) = _
  rw [er, bind_ok]
  change (assembleJac P P.nb cell fs >>= _) = _
  rw [ej, bind_ok]
  change (solveLocal P P.nb cell jac r a >>= _) = _
  unfold solveLocal
  rw [hs]
  rfl

/-- The function of a cell depends on its coefficients only. -/
theorem tof_same {c : Nat} {t u : List Rat} (h : Same P.solver c t u) : tof P u c = tof P t c := by
  funext x
  rw [tof_sum, tof_sum]
  exact sum_congr rfl (fun j hj => by rw [show u.getD (P.nb * c + j) 0 = t.getD (P.nb * c + j) 0 from h j (mem_range.1 hj)])

theorem same_of_outside {d c : Nat} (hne : d ≠ c) {t u : List Rat} (h : ∀ k, (k < P.nb * c ∨ P.nb * (c + 1) ≤ k) → u.getD k 0 = t.getD k 0) : Same P.solver d t u := by
  intro i hi
  have hi' : i < P.nb := hi
  refine h _ ?_
  change P.nb * d + i < P.nb * c ∨ P.nb * (c + 1) ≤ P.nb * d + i
  rcases lt_or_gt_of_ne hne with q | q
  · have := Nat.mul_le_mul_left P.nb (show d + 1 ≤ c from q)
    rw [Nat.mul_succ] at this
    omega
  · have := Nat.mul_le_mul_left P.nb (show c + 1 ≤ d from q)
    omega

theorem rhs_same {t u : List Rat} (h : ∀ f ∈ fs, out P.solver cell f < 0 → 0 ≤ other P.solver cell f → Same P.solver (other P.solver cell f).toNat t u) (i : Nat) :
    rhs P cell u fs cp fp i = rhs P cell t fs cp fp i := by
  unfold rhs
  congr 2
  refine List.map_congr_left (fun f hf => ?_)
  by_cases q : out P.solver cell f < 0 ∧ 0 ≤ other P.solver cell f
  · rw [if_pos q, if_pos q, tof_same (h f hf q.1 q.2)]
  · rw [if_neg q, if_neg q]

/-- Inflow through an inner face comes from a cell upstream. -/
theorem flows (hv : P.topo.Valid) (hl : P.flux.length = P.nf) (h : CellData P cell fs cp cq fp v) {f : Nat} (hf : f ∈ fs) (ho : out P.solver cell f < 0) (hi : 0 ≤ other P.solver cell f) :
    P.topo.FlowsTo P.flux (other P.solver cell f).toNat cell := by
  obtain ⟨h1, h2⟩ := h.sides f hf
  have hS : P.topo.Sides f (P.faceCells.getD (2 * f) 0) (P.faceCells.getD (2 * f + 1) 0) := by
    constructor
    · show P.faceCells[2 * f]? = _
      rw [List.getD_eq_getElem?_getD, List.getElem?_eq_getElem (show 2 * f < P.faceCells.length by omega)]; rfl
    · show P.faceCells[2 * f + 1]? = _
      rw [List.getD_eq_getElem?_getD, List.getElem?_eq_getElem h2]; rfl
  have hF : P.topo.HasFace cell f := by
    obtain ⟨x, y, e1, e2, e3⟩ := h.faceRow
    unfold slice at e3
    split at e3
    · rename_i hxy
      cases e3
      obtain ⟨k, hk⟩ := List.mem_iff_getElem?.1 hf
      rw [List.getElem?_drop, List.getElem?_take] at hk
      split at hk
      · rename_i hlt
        exact ⟨x, y, x + k, e1, e2, by omega, hlt, hk⟩
      · cases hk
    · cases e3
  have hq : P.flux[f]? = some (P.flux.getD f 0) := by
    rw [List.getD_eq_getElem?_getD, List.getElem?_eq_getElem h1]; rfl
  refine ⟨f, P.flux.getD f 0, hq, ?_⟩
  unfold out at ho
  unfold other at hi ⊢
  change (if (cell : Int) = P.faceCells.getD (2 * f) 0 then P.flux.getD f 0 else -P.flux.getD f 0) < 0 at ho
  change 0 ≤ (if (cell : Int) = P.faceCells.getD (2 * f) 0 then P.faceCells.getD (2 * f + 1) 0 else P.faceCells.getD (2 * f) 0) at hi
  change _ ∨ _
  by_cases q : (cell : Int) = P.faceCells.getD (2 * f) 0
  · rw [if_pos q] at ho hi
    refine .inr ⟨ho, ?_⟩
    change P.topo.Sides f cell ((if (cell : Int) = P.faceCells.getD (2 * f) 0 then P.faceCells.getD (2 * f + 1) 0 else P.faceCells.getD (2 * f) 0).toNat : Int)
    rw [if_pos q, Int.toNat_of_nonneg hi, q]
    exact hS
  · rw [if_neg q] at ho hi
    refine .inl ⟨by linarith, ?_⟩
    change P.topo.Sides f ((if (cell : Int) = P.faceCells.getD (2 * f) 0 then P.faceCells.getD (2 * f + 1) 0 else P.faceCells.getD (2 * f) 0).toNat : Int) cell
    rw [if_neg q, Int.toNat_of_nonneg hi]
    rcases (hv.agree cell f _ _ hS).1 hF with z | z
    · exact absurd z.symm q
    · rw [← z]
      exact hS

/-- Cells solved one after the other: coefficients of other cells do not change. -/
theorem cells_solved {fs : Nat → List Nat} {cp cq : Nat → List (List Rat × Rat)} {v : Nat → List Rat → List Rat} (h : Solvable P fs cp cq fp v) (hl : LapackOk P.lu) (hn : P.limiter = none ∨ P.basis.degree = 0)
    {cs : List Nat} (hcs : ∀ c ∈ cs, c < P.nc) {t : List Rat} (ht : t.length = P.nb * P.nc) :
    ∃ t', solveMultiCell P cs t = .ok t' ∧ t'.length = P.nb * P.nc ∧ ∀ c, c ∉ cs → Same P.solver c t t' := by
  obtain ⟨t', e, l, p⟩ := foldlM_inv (l := cs) (f := fun c d => solveSingleCell P d c) (s := t) (fun done u => u.length = P.nb * P.nc ∧ ∀ c, c ∉ done → Same P.solver c t u) ⟨ht, fun _ _ _ _ => rfl⟩ (by
    rintro done d rest u eL ⟨l1, p1⟩
    have hd : d < P.nc := hcs d (by rw [eL]; simp)
    obtain ⟨u', e', l', q', -⟩ := solves (h.data d hd) (a := u) (by omega) hl (h.regular d hd) hn
    refine ⟨u', e', by omega, fun c hc i hi => ?_⟩
    simp only [List.mem_append, List.mem_singleton, not_or] at hc
    rw [same_of_outside hc.2 q' i hi, p1 c hc.1 i hi])
  exact ⟨t', e, l, p⟩

/-- **C126.**  `solveTof` without the limiter: at the end the equations of the method hold in every cell to which fluid that left it does not come back. -/
theorem solveTof_equations {fs : Nat → List Nat} {cp cq : Nat → List (List Rat × Rat)} {v : Nat → List Rat → List Rat} (h : Solvable P fs cp cq fp v) (hl : LapackOk P.lu) (hn : P.limiter = none ∨ P.basis.degree = 0)
    {fuel : Nat} (hfuel : 2 * P.nc + 2 * P.nf + 2 ≤ fuel) :
    ∃ t, solveTof fuel P .no = .ok t ∧ t.length = P.nb * P.nc ∧
      ∀ c, c < P.nc → ¬ Relation.TransGen (P.topo.FlowsTo P.flux) c c → ∀ i, i < P.nb → lhs P c (fs c) (cq c) fp (v c) (tof P t c) i = rhs P c t (fs c) (cp c) fp i := by
  obtain ⟨calls, e, hp, ho, hcirc, hm⟩ := Reorder.Props.reorderAndTransport_order (g := P.topo) h.valid h.lenFlux h.cells [] [] hfuel
  have hmem : ∀ d, d ∈ calls.flatMap Reorder.Props.cells ↔ d < P.nc := fun d => by rw [hp.mem_iff, List.mem_range]; rfl
  have hnd : (calls.flatMap Reorder.Props.cells).Nodup := hp.nodup_iff.2 List.nodup_range
  obtain ⟨t, et, lt, pt⟩ := foldlM_inv (l := calls) (f := solveCall P) (s := List.replicate (P.nb * P.nc) 0)
    (fun done t => t.length = P.nb * P.nc ∧ ∀ c ∈ done.flatMap Reorder.Props.cells, ¬ Relation.TransGen (P.topo.FlowsTo P.flux) c c →
      ∀ i, i < P.nb → lhs P c (fs c) (cq c) fp (v c) (tof P t c) i = rhs P c t (fs c) (cp c) fp i) ⟨by simp, by simp⟩ (by
      rintro done x rest t eL ⟨l1, p1⟩
      have hx : x ∈ calls := by rw [eL]; simp
      have hxlt : ∀ d ∈ Reorder.Props.cells x, d < P.nc := fun d hd => (hmem d).1 (List.mem_flatMap.2 ⟨x, hx, hd⟩)
      have hdl : ∀ c ∈ done.flatMap Reorder.Props.cells, c < P.nc := fun c hc => by
        obtain ⟨y, hy, hcy⟩ := List.mem_flatMap.1 hc
        exact (hmem c).1 (List.mem_flatMap.2 ⟨y, by rw [eL]; exact List.mem_append_left _ hy, hcy⟩)
      have hdis : ∀ c ∈ done.flatMap Reorder.Props.cells, c ∉ Reorder.Props.cells x := by
        intro c hc hcx
        rw [eL, List.flatMap_append, List.nodup_append] at hnd
        exact hnd.2.2 c hc c (by simp [hcx]) rfl
      have hup : ∀ c, c ∈ done.flatMap Reorder.Props.cells → ∀ u, P.topo.FlowsTo P.flux u c → u ∈ done.flatMap Reorder.Props.cells := by
        intro c hc u hu
        obtain ⟨y, hy, hcy⟩ := List.mem_flatMap.1 hc
        obtain ⟨i, hi⟩ := List.mem_iff_getElem?.1 hy
        have hil : i < done.length := (List.getElem?_eq_some_iff.1 hi).1
        obtain ⟨j, y', hj, hj', huy⟩ := ho i y (by rw [eL, List.getElem?_append_left hil, hi]) c hcy u hu
        rw [eL, List.getElem?_append_left (by omega)] at hj'
        exact List.mem_flatMap.2 ⟨y', List.mem_of_getElem? hj', huy⟩
      have keep : ∀ t', (∀ c, c ∉ Reorder.Props.cells x → Same P.solver c t t') → ∀ c ∈ done.flatMap Reorder.Props.cells, ¬ Relation.TransGen (P.topo.FlowsTo P.flux) c c →
          ∀ i, i < P.nb → lhs P c (fs c) (cq c) fp (v c) (tof P t' c) i = rhs P c t' (fs c) (cp c) fp i := by
        intro t' hs c hc hcc i hi
        rw [tof_same (hs c (hdis c hc)), rhs_same (t := t) (fun f hf h1 h2 => hs _ (hdis _ (hup c hc _ (flows h.valid h.lenFlux (h.data c (hdl c hc)) hf h1 h2)))) i]
        exact p1 c hc hcc i hi
      cases x with
      | single d =>
        have hd : d < P.nc := hxlt d (by simp [Reorder.Props.cells])
        obtain ⟨t', e', l', q', p'⟩ := solves (h.data d hd) (a := t) (by omega) hl (h.regular d hd) hn
        have hs : ∀ c, c ∉ Reorder.Props.cells (.single d) → Same P.solver c t t' := fun c hc => same_of_outside (c := d) (by simpa [Reorder.Props.cells] using hc) q'
        refine ⟨t', e', by omega, fun c hc hcc i hi => ?_⟩
        rw [List.flatMap_append, List.mem_append] at hc
        rcases hc with hc | hc
        · exact keep t' hs c hc hcc i hi
        · obtain rfl : c = d := by simpa [Reorder.Props.cells] using hc
          rw [p' i hi]
          refine (rhs_same (fun f hf h1 h2 => hs _ (fun z => ?_)) i).symm
          have hz : (other P.solver c f).toNat = c := by simpa [Reorder.Props.cells] using z
          have hfl := flows h.valid h.lenFlux (h.data c hd) hf h1 h2
          rw [hz] at hfl
          exact hcc (Relation.TransGen.single hfl)
      | multi cs =>
        obtain ⟨t', e', l', q'⟩ := cells_solved h hl hn (cs := cs) hxlt l1
        refine ⟨t', e', l', fun c hc hcc i hi => ?_⟩
        rw [List.flatMap_append, List.mem_append] at hc
        rcases hc with hc | hc
        · exact keep t' q' c hc hcc i hi
        · exfalso
          have hc' : c ∈ cs := by simpa [Reorder.Props.cells] using hc
          have hcn : cs.Nodup := by
            rw [List.nodup_flatMap] at hnd
            exact hnd.1 _ hx
          obtain ⟨d, hd, hne⟩ : ∃ d ∈ cs, d ≠ c := by
            have hlen := hm cs hx
            match cs, hlen, hcn with
            | a :: b :: l, _, hcn =>
              by_cases q : a = c
              · refine ⟨b, by simp, fun z => ?_⟩
                simp at hcn
                exact hcn.1.1 (q.trans z.symm)
              · exact ⟨a, by simp, q⟩
          have hr := (hcirc _ hx c hc' d).1 hd
          rcases hr.1.cases_head with z | ⟨y, h1, h2⟩
          · exact hne z.symm
          · exact hcc ((Relation.TransGen.head' h1 h2).trans_left hr.2))
  refine ⟨t, ?_, lt, fun c hc => pt c ((hmem c).2 hc)⟩
  unfold solveTof
  rw [numBasis_eq ((h.data 0 h.cells).usable 0 h.cells), bind_ok, e, bind_ok]
  change (calls.foldlM (solveCall P) (List.replicate (P.nb * P.nc) 0) >>= _) = _
  rw [et, bind_ok]

/-- **C126.**  The limiter after the computations is applied to that result, to the cells in the order in which they were solved or to all at once. -/
theorem solveTof_post (P : Problem) (m : TofLimiter.Method) (fuel : Nat) :
    (∀ calls, Reorder.reorderAndTransport fuel P.topo P.flux [] [] = .ok calls → ∀ t, solveTof fuel P .no = .ok t →
      solveTof fuel P (.inOrder m) = TofLimiter.postProcess P.solver m (calls.flatMap Reorder.Props.cells) t ∧ solveTof fuel P (.simultaneous m) = TofLimiter.simultaneous P.solver m t) := by
  intro calls e t et
  unfold solveTof at *
  cases hb : DGBasis.numBasis P.basis with
  | error z => rw [hb] at et; cases et
  | ok nb =>
    rw [hb, bind_ok, e, bind_ok] at et
    rw [bind_ok, e, bind_ok, bind_ok, bind_ok]
    cases hf : calls.foldlM (solveCall P) (List.replicate (nb * P.nc) 0) with
    | error z => rw [hf] at et; cases et
    | ok c =>
      rw [hf, bind_ok] at et
      cases et
      exact ⟨rfl, rfl⟩

/-- There is only one solution of all these equations. -/
theorem solution_unique {fs : Nat → List Nat} {cp cq : Nat → List (List Rat × Rat)} {v : Nat → List Rat → List Rat} (h : Solvable P fs cp cq fp v) (hac : NoCirculation P.topo P.flux) {t u : List Rat}
    (ht : ∀ c, c < P.nc → ∀ i, i < P.nb → lhs P c (fs c) (cq c) fp (v c) (tof P t c) i = rhs P c t (fs c) (cp c) fp i)
    (hu : ∀ c, c < P.nc → ∀ i, i < P.nb → lhs P c (fs c) (cq c) fp (v c) (tof P u c) i = rhs P c u (fs c) (cp c) fp i) : ∀ c, c < P.nc → Same P.solver c t u := by
  obtain ⟨L, -, hp, ho⟩ := Reorder.single_calls (g := P.topo) h.valid h.lenFlux h.cells hac [] [] (fuel := 2 * P.nc + 2 * P.nf + 2) (le_refl _)
  have hmem : ∀ d, d ∈ L ↔ d < P.nc := fun d => by rw [hp.mem_iff, List.mem_range]; rfl
  obtain ⟨rank, hr⟩ := Reorder.exists_rank (hp.nodup_iff.2 List.nodup_range) ho
  refine Tof.flow_induction (g := P.topo) (flux := P.flux) (rank := rank) (fun x d hd hx => hr x d ((hmem d).2 hd) hx) (fun c hc ih => ?_)
  have hc' : c < P.nc := hc
  refine unique (h.regular c hc') (fun i hi => ?_)
  rw [ht c hc' i hi, hu c hc' i hi]
  exact (rhs_same (fun f hf h1 h2 => ih _ (other_lt (h.data c hc') hf (by omega)) (flows h.valid h.lenFlux (h.data c hc') hf h1 h2)) i).symm

/-- A combination of the basis functions that is the constant one. -/
theorem one_in_span (h : Usable P.basis cell) : ∃ w : Nat → Rat, (∀ x, ∑ i ∈ range P.nb, w i * phi P cell i x = 1) ∧ ∀ x z, ∑ i ∈ range P.nb, w i * along P cell i x z = 0 := by
  cases hk : P.basis.kind with
  | totalDegree =>
    refine ⟨fun i => if i = 0 then 1 else 0, fun x => ?_, fun x z => ?_⟩
    · rw [sum_eq_single_of_mem 0 (mem_range.2 (nb_pos P)) (fun i _ hi => by dsimp only; rw [if_neg hi, zero_mul])]
      dsimp only
      rw [if_pos rfl, one_mul]
      unfold phi
      rw [hk]
      obtain ⟨hd | hd, -⟩ := DGBasis.cases_of h <;> rw [hd] <;> rfl
    · refine sum_eq_zero (fun i _ => ?_)
      by_cases q : i = 0
      · subst q
        dsimp only
        rw [if_pos rfl, one_mul]
        refine sum_eq_zero (fun d _ => ?_)
        unfold deriv
        rw [hk]
        simp
      · dsimp only
        rw [if_neg q, zero_mul]
  | multilin =>
    refine ⟨fun _ => 1, fun x => ?_, fun x z => ?_⟩
    · simp only [one_mul]
      exact DGBasis.sum_poly h hk _
    · simp only [one_mul]
      unfold along
      rw [sum_comm]
      refine sum_eq_zero (fun d hd => ?_)
      rw [← sum_mul]
      have hz : ∑ i ∈ range P.nb, deriv P.basis i d (rel P.basis cell x) = 0 := by
        unfold Problem.nb deriv
        obtain ⟨hd', hn⟩ := DGBasis.cases_of h
        rw [mem_range] at hd
        rcases hd' with e | e
        · simp [e]
        · rw [e, hk]
          rcases hn with e' | e' | e' <;> rw [e'] at hd ⊢
          · obtain rfl : d = 0 := by omega
            simp [count, sum_range_succ, prod_range_succ, Nat.testBit]
          · obtain rfl | rfl : d = 0 ∨ d = 1 := by omega
            all_goals
              simp [count, sum_range_succ, prod_range_succ, Nat.testBit]
              try ring
          · obtain rfl | rfl | rfl : d = 0 ∨ d = 1 ∨ d = 2 := by omega
            all_goals
              simp [count, sum_range_succ, prod_range_succ, Nat.testBit]
              try ring
      rw [hz, zero_mul]

theorem integral_sum (ps : List (List Rat × Rat)) (n : Nat) (g : Nat → List Rat → Rat) (w : Nat → Rat) : ∑ i ∈ range n, w i * integral ps (g i) = integral ps (fun x => ∑ i ∈ range n, w i * g i x) := by
  unfold integral
  induction ps with
  | nil => simp
  | cons p ps ih =>
    simp only [List.map_cons, List.sum_cons, mul_add, sum_add_distrib, ih]
    congr 1
    rw [mul_sum]
    exact sum_congr rfl (fun i _ => by ring)

theorem sum_list_sum {β : Type} (l : List β) (n : Nat) (w : Nat → Rat) (g : Nat → β → Rat) : ∑ i ∈ range n, w i * (l.map (g i)).sum = (l.map (fun f => ∑ i ∈ range n, w i * g i f)).sum := by
  induction l with
  | nil => simp
  | cons x l ih => simp only [List.map_cons, List.sum_cons, mul_add, sum_add_distrib, ih]

/-- **C126.**  Conservation: what flows out of a cell, through faces and into its sink, is the pore volume plus what flows in. -/
theorem conserved (h : Usable P.basis cell) {u : List Rat → Rat} (he : ∀ i, i < P.nb → lhs P cell fs cq fp v u i = rhs P cell a fs cp fp i) :
    (fs.map (fun f => if 0 < out P.solver cell f then normalVelocity P cell f * integral (fp f) u else 0)).sum
      + (if P.source.getD cell 0 < 0 then -P.source.getD cell 0 / P.G.cellVolumes.getD cell 0 * integral cq u else 0)
    = P.porevolume.getD cell 0 / P.G.cellVolumes.getD cell 0 * (cp.map (·.2)).sum
      - (fs.map (fun f => if out P.solver cell f < 0 ∧ 0 ≤ other P.solver cell f then normalVelocity P cell f * integral (fp f) (tof P a (other P.solver cell f).toNat) else 0)).sum := by
  obtain ⟨w, h1, h2⟩ := one_in_span h
  have hs : ∑ i ∈ range P.nb, w i * lhs P cell fs cq fp v u i = ∑ i ∈ range P.nb, w i * rhs P cell a fs cp fp i := sum_congr rfl (fun i hi => by rw [he i (mem_range.1 hi)])
  have hu : ∀ (ps : List (List Rat × Rat)) (g : List Rat → Rat), ∑ i ∈ range P.nb, w i * integral ps (fun x => g x * phi P cell i x) = integral ps g := by
    intro ps g
    rw [integral_sum]
    congr 1
    funext x
    rw [sum_congr rfl (fun i _ => show w i * (g x * phi P cell i x) = g x * (w i * phi P cell i x) by ring), ← mul_sum, h1, mul_one]
  have hc : ∀ (z : Rat) (ps : List (List Rat × Rat)) (g : List Rat → Rat), ∑ i ∈ range P.nb, w i * (z * integral ps (fun x => g x * phi P cell i x)) = z * integral ps g := by
    intro z ps g
    rw [← hu ps g, mul_sum]
    exact sum_congr rfl (fun i _ => by ring)
  have hg : ∑ i ∈ range P.nb, w i * integral cq (fun x => u x * along P cell i x (v x)) = 0 := by
    rw [integral_sum]
    unfold integral
    refine List.sum_eq_zero (fun y hy => ?_)
    obtain ⟨p, -, rfl⟩ := List.mem_map.1 hy
    dsimp only
    rw [sum_congr rfl (fun i _ => show w i * (u p.1 * along P cell i p.1 (v p.1)) = u p.1 * (w i * along P cell i p.1 (v p.1)) by ring), ← mul_sum, h2]
    simp
  have hp : ∑ i ∈ range P.nb, w i * integral cp (phi P cell i) = (cp.map (·.2)).sum := by
    rw [integral_sum]
    unfold integral
    congr 1
    exact List.map_congr_left (fun p _ => by dsimp only; rw [h1, mul_one])
  unfold lhs rhs at hs
  simp only [mul_add, mul_sub, mul_neg, sum_add_distrib, sum_sub_distrib, sum_neg_distrib, hg, neg_zero, zero_add, sum_list_sum] at hs
  convert hs using 2
  · congr 1
    refine List.map_congr_left (fun f _ => ?_)
    split
    · rw [hc]
    · simp
  · split
    · rw [hc]
    · simp
  · rw [← hp, mul_sum]
    exact sum_congr rfl (fun i _ => by ring)
  · congr 1
    refine List.map_congr_left (fun f _ => ?_)
    split
    · rw [hc]
    · simp

theorem points_one {coord : Nat → M (List Rat)} {weight : Nat → M Rat} {ps : List (List Rat × Rat)} (h : points (.ok 1) coord weight = .ok ps) {w : Rat} (hw : weight 0 = .ok w) : ∃ x, ps = [(x, w)] := by
  unfold points at h
  rw [bind_ok, loop_succ] at h
  change (coord 0 >>= _) = _ at h
  cases e : coord 0 with
  | error z => rw [e] at h; cases h
  | ok x =>
    rw [e, bind_ok, hw, bind_ok] at h
    exact ⟨x, by simpa using (Except.ok.inj h).symm⟩

theorem cellPts_zero {ps : List (List Rat × Rat)} (h : cellPts P cell 0 = .ok ps) (hv : cell < P.G.cellVolumes.length) : ∃ x, ps = [(x, P.G.cellVolumes.getD cell 0)] := by
  unfold cellPts at h
  cases e : Quadrature.construct P.G 0 with
  | error z => rw [e] at h; cases h
  | ok _ =>
    rw [e, bind_ok] at h
    have hn : Quadrature.cellNum P.G cell 0 = .ok 1 := by unfold Quadrature.cellNum; rw [if_pos (.inl (by omega))]
    rw [hn] at h
    exact points_one h (by unfold Quadrature.cellWeight; rw [if_pos (by omega), rdG hv])

theorem facePts_zero {f : Nat} {ps : List (List Rat × Rat)} (h : facePts P f 0 = .ok ps) (hv : f < P.G.faceAreas.length) : ∃ x, ps = [(x, P.G.faceAreas.getD f 0)] := by
  unfold facePts at h
  cases e : Quadrature.construct P.G 0 with
  | error z => rw [e] at h; cases h
  | ok _ =>
    rw [e, bind_ok] at h
    have hn : Quadrature.faceNum P.G f 0 = .ok 1 := by unfold Quadrature.faceNum; rw [if_pos (by omega)]
    rw [hn] at h
    exact points_one h (by unfold Quadrature.faceWeight; rw [if_pos (by omega), rdG hv])

/-- **C126.**  With piecewise constants the equations are those of the upwind method: the time of flight of the cell times what leaves it is the pore volume plus what enters times its time of flight. -/
theorem degree_zero (h : CellData P cell fs cp cq fp v) (hd : P.basis.degree = 0) (he : ∀ i, i < P.nb → lhs P cell fs cq fp v (tof P a cell) i = rhs P cell a fs cp fp i) :
    a.getD cell 0 * ((fs.map (fun f => max (out P.solver cell f) 0)).sum + max (-P.source.getD cell 0) 0) =
      P.porevolume.getD cell 0 + (fs.map (fun f => if 0 ≤ other P.solver cell f then max (-out P.solver cell f) 0 * a.getD (other P.solver cell f).toNat 0 else 0)).sum := by
  have hnb : P.nb = 1 := by
    unfold Problem.nb
    rw [hd]
    obtain ⟨-, hn⟩ := DGBasis.cases_of (h.usable cell h.inside)
    cases P.basis.kind <;> rcases hn with e | e | e <;> rw [e] <;> rfl
  have ht : ∀ c x, tof P a c x = a.getD c 0 := by
    intro c x
    rw [tof_sum, hnb, sum_range_one, Nat.one_mul, Nat.add_zero]
    unfold phi
    rw [hd]
    cases P.basis.kind <;> simp [poly]
  have h1 := h.cellPts
  have h2 := h.cellPts2
  rw [hd] at h1 h2
  obtain ⟨x, rfl⟩ := cellPts_zero h1 h.volume.1
  obtain ⟨y, rfl⟩ := cellPts_zero h2 h.volume.1
  have hf : ∀ f ∈ fs, ∃ x, fp f = [(x, P.G.faceAreas.getD f 0)] := fun f hf => by
    have := h.facePts f hf
    rw [hd] at this
    exact facePts_zero this (h.area f hf).1
  have hcons := conserved (h.usable cell h.inside) he
  have hV := h.volume.2
  have e1 : (fs.map (fun f => if 0 < out P.solver cell f then normalVelocity P cell f * integral (fp f) (tof P a cell) else 0)).sum = a.getD cell 0 * (fs.map (fun f => max (out P.solver cell f) 0)).sum := by
    rw [← List.sum_map_mul_left]
    congr 1
    refine List.map_congr_left (fun f hm => ?_)
    obtain ⟨z, hz⟩ := hf f hm
    have hA := (h.area f hm).2
    split
    · rename_i q
      rw [hz, max_eq_left q.le, integral, normalVelocity]
      simp only [List.map_cons, List.map_nil, List.sum_cons, List.sum_nil, ht]
      field_simp
      ring
    · rename_i q
      rw [max_eq_right (not_lt.1 q), mul_zero]
  have e2 : (if P.source.getD cell 0 < 0 then -P.source.getD cell 0 / P.G.cellVolumes.getD cell 0 * integral [(y, P.G.cellVolumes.getD cell 0)] (tof P a cell) else 0) = a.getD cell 0 * max (-P.source.getD cell 0) 0 := by
    split
    · rename_i q
      rw [max_eq_left (by linarith), integral]
      simp only [List.map_cons, List.map_nil, List.sum_cons, List.sum_nil, ht]
      field_simp
      ring
    · rename_i q
      rw [max_eq_right (by linarith), mul_zero]
  have e3 : -(fs.map (fun f => if out P.solver cell f < 0 ∧ 0 ≤ other P.solver cell f then normalVelocity P cell f * integral (fp f) (tof P a (other P.solver cell f).toNat) else 0)).sum
      = (fs.map (fun f => if 0 ≤ other P.solver cell f then max (-out P.solver cell f) 0 * a.getD (other P.solver cell f).toNat 0 else 0)).sum := by
    rw [← sum_map_neg]
    congr 1
    refine List.map_congr_left (fun f hm => ?_)
    obtain ⟨z, hz⟩ := hf f hm
    have hA := (h.area f hm).2
    by_cases q : 0 ≤ other P.solver cell f
    · by_cases q' : out P.solver cell f < 0
      · rw [if_pos ⟨q', q⟩, if_pos q, hz, max_eq_left (by linarith), integral, normalVelocity]
        simp only [List.map_cons, List.map_nil, List.sum_cons, List.sum_nil, ht]
        field_simp
        ring
      · rw [if_neg (fun z => q' z.1), if_pos q, max_eq_right (by linarith)]
        ring
    · rw [if_neg (fun z => q z.2), if_neg q, neg_zero]
  rw [e1, e2, sub_eq_add_neg, e3] at hcons
  rw [mul_add, hcons]
  simp only [List.map_cons, List.map_nil, List.sum_cons, List.sum_nil, add_zero]
  rw [div_mul_cancel₀ _ hV]

/-- With piecewise constants the matrix of a cell is what leaves it: the equation is regular if something leaves the cell. -/
theorem degree_zero_regular (h : CellData P cell fs cp cq fp v) (hd : P.basis.degree = 0) (hm : (fs.map (fun f => max (out P.solver cell f) 0)).sum + max (-P.source.getD cell 0) 0 ≠ 0) :
    Regular P.nb (matrix P cell fs cq fp v) := by
  have hnb : P.nb = 1 := by
    unfold Problem.nb
    rw [hd]
    obtain ⟨-, hn⟩ := DGBasis.cases_of (h.usable cell h.inside)
    cases P.basis.kind <;> rcases hn with e | e | e <;> rw [e] <;> rfl
  have hphi : ∀ x, phi P cell 0 x = 1 := by
    intro x
    unfold phi
    rw [hd]
    cases P.basis.kind <;> simp [poly]
  have hal : ∀ x z, along P cell 0 x z = 0 := by
    intro x z
    unfold along deriv
    rw [hd]
    simp
  have h2 := h.cellPts2
  rw [hd] at h2
  obtain ⟨y, rfl⟩ := cellPts_zero h2 h.volume.1
  have hV := h.volume.2
  have e0 : matrix P cell fs [(y, P.G.cellVolumes.getD cell 0)] fp v 0 = (fs.map (fun f => max (out P.solver cell f) 0)).sum + max (-P.source.getD cell 0) 0 := by
    unfold matrix lhs
    rw [hnb, Nat.zero_div, Nat.zero_mod]
    simp only [hphi, hal, mul_zero, mul_one]
    congr 1
    · rw [show integral [(y, P.G.cellVolumes.getD cell 0)] (fun _ => 0) = 0 by simp [integral], neg_zero, zero_add]
      congr 1
      refine List.map_congr_left (fun f hf => ?_)
      have hp := h.facePts f hf
      rw [hd] at hp
      obtain ⟨z, hz⟩ := facePts_zero hp (h.area f hf).1
      have hA := (h.area f hf).2
      split
      · rename_i q
        rw [hz, max_eq_left q.le, integral, normalVelocity]
        simp only [List.map_cons, List.map_nil, List.sum_cons, List.sum_nil]
        field_simp
        ring
      · rename_i q
        rw [max_eq_right (not_lt.1 q)]
    · split
      · rename_i q
        rw [max_eq_left (by linarith), integral]
        simp only [List.map_cons, List.map_nil, List.sum_cons, List.sum_nil]
        field_simp
        ring
      · rename_i q
        rw [max_eq_right (by linarith)]
  rw [hnb]
  intro w hw j hj
  obtain rfl : j = 0 := by omega
  have := hw 0 (by omega)
  rw [sum_range_one, Nat.zero_mul, Nat.zero_add, e0] at this
  exact (mul_eq_zero.1 this).resolve_left hm

end Opm.TofDiscGal
