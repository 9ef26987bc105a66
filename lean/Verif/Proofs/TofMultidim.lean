import Verif.Spec.TofMultidim
import Verif.Proofs.TofDiscGal
/-!
# Lemmas about multidimensional upwinding
-/

namespace Opm.TofMultidim
open Opm UniquePoints
open _root_.Opm.Geometry (RowOf entries entries_ok)
open _root_.Opm.DGBasis (rdG)

variable {P : Problem} {cell : Nat} {fs : List Nat} {ns : Nat → List Nat}

theorem common_eq {a : List Nat} (h : a.Nodup) (b : List Nat) : common a b = shared a b := by
  unfold common shared
  induction b with
  | nil => rfl
  | cons n b ih =>
    rw [List.map_cons, List.sum_cons, ih, List.filter_cons]
    by_cases q : n ∈ a
    · rw [List.count_eq_one_of_mem h q]
      simp [q, Nat.add_comm]
    · rw [List.count_eq_zero_of_not_mem q]
      simp [q]

theorem adjacent_ok (h : CellData P cell fs ns) {f : Nat} (hf : f ∈ fs) : adjacent P f cell = .ok (beside P fs ns f) := by
  obtain ⟨h1, h2⟩ := h.nodes f hf
  have hfold : fs.foldlM (adjacentFace P f (ns f)) [] = .ok (beside P fs ns f) := by
    obtain ⟨t, e, p⟩ := foldlM_inv (l := fs) (f := adjacentFace P f (ns f)) (s := []) (fun done t => t = beside P done ns f) rfl (by
      rintro done x rest t eL rfl
      have hx : x ∈ fs := by rw [eL]; simp
      refine ⟨_, ?_, rfl⟩
      have eb : beside P (done ++ [x]) ns f = beside P done ns f ++ beside P [x] ns f := List.filter_append ..
      unfold adjacentFace
      rw [eb]
      by_cases q : x = f
      · rw [if_pos q]
        simp [beside, q]
      · rw [if_neg q, entries_ok (h.nodes x hx).1, bind_ok, common_eq h2]
        rcases h.meet f hf x hx q with z | z
        · rw [if_pos z]
          simp [beside, q, z]
        · by_cases w : shared (ns f) (ns x) + 1 = P.dim
          · rw [if_pos w]
            simp [beside, q, w]
          · rw [if_neg w, check_ok (by simp [z]), bind_ok]
            simp [beside, w])
    rw [e, p]
  unfold adjacent
  rw [entries_ok h1, bind_ok, check_ok (by
    by_cases q : P.dim = 2
    · simp [h.planar q f hf]
    · simp [q]), bind_ok, entries_ok h.row, bind_ok, hfold, bind_ok, check_ok (by simp [(h.closed f hf).1]), bind_ok]

theorem outflux_ok (h : CellData P cell fs ns) {f : Nat} (hf : f ∈ fs) : outflux P cell f = .ok (out P cell f) := by
  obtain ⟨-, h1, h2⟩ := h.inside f hf
  unfold outflux out
  have e1 : rd P.g.faceCells (2 * f) = .ok (P.g.faceCells.getD (2 * f) 0) := by
    rw [rd_ok (by omega)]; simp [show 2 * f < P.g.faceCells.length by omega]
  rw [e1, bind_ok, rdG h1, bind_ok]
  by_cases q : P.g.faceCells.getD (2 * f) 0 = (cell : Int)
  · rw [if_pos q, if_pos q.symm]
  · rw [if_neg q, if_neg (fun z => q z.symm)]

theorem beside_mem {f j : Nat} (h : j ∈ beside P fs ns f) : j ∈ fs ∧ j ≠ f := by
  unfold beside at h
  rw [List.mem_filter] at h
  exact ⟨h.1, by simpa using (of_decide_eq_true h.2).1⟩

/-- The weight. -/
theorem omega_ok (hq : Quiet P cell fs ns) {f j : Nat} (hf : f ∈ fs) (hj : j ∈ beside P fs ns f) : omega (-out P cell j) |P.flux.getD f 0| = .ok (weight P cell f j) := by
  unfold omega weight
  by_cases q : P.flux.getD f 0 = 0
  · have := hq f hf q j hj
    rw [q, abs_zero, if_pos rfl, if_neg (by linarith), if_neg (by linarith)]
  · have hp : 0 < |P.flux.getD f 0| := abs_pos.2 q
    rw [if_neg hp.ne']
    by_cases z : out P cell j < 0
    · rw [if_pos (div_pos (by linarith) hp), if_pos z]
      congr 1
      have e : 1 + -out P cell j / |P.flux.getD f 0| = (-out P cell j + |P.flux.getD f 0|) / |P.flux.getD f 0| := by
        rw [add_div, div_self hp.ne', add_comm]
      rw [e, div_div_div_cancel_right₀ hp.ne']
    · rw [if_neg (not_lt.2 (div_nonpos_of_nonpos_of_nonneg (by linarith) hp.le)), if_neg z]

/-- `face_term`. -/
def fterm (P : Problem) (cell : Nat) (adj : List Nat) (F : Nat → Rat) (f : Nat) : Rat := (adj.map (fun j => weight P cell f j * F j)).sum / adj.length

/-- `cell_term_factor`. -/
def cterm (P : Problem) (cell : Nat) (adj : List Nat) (f : Nat) : Rat := (adj.map (fun j => 1 - weight P cell f j)).sum / adj.length

theorem faceValue_eq (adj : List Nat) (F : Nat → Rat) (t : Rat) (f : Nat) : faceValue P cell adj F t f = fterm P cell adj F f + cterm P cell adj f * t := by
  unfold faceValue fterm cterm
  have : (adj.map (fun j => weight P cell f j * F j + (1 - weight P cell f j) * t)).sum = (adj.map (fun j => weight P cell f j * F j)).sum + (adj.map (fun j => 1 - weight P cell f j)).sum * t := by
    generalize weight P cell f = w
    induction adj with
    | nil => simp
    | cons j adj ih =>
      simp only [List.map_cons, List.sum_cons]
      rw [ih]
      ring
  rw [this]
  ring

theorem terms_ok (h : CellData P cell fs ns) (hq : Quiet P cell fs ns) {F : List Rat} (hF : F.length = P.g.nf) {f : Nat} (hf : f ∈ fs) :
    terms P F f cell = .ok (fterm P cell (beside P fs ns f) (fun j => F.getD j 0) f, cterm P cell (beside P fs ns f) f) := by
  have hn : ((beside P fs ns f).length : Rat) ≠ 0 := by
    have := h.closed f hf
    rw [this.1]
    exact_mod_cast this.2.ne'
  obtain ⟨t, e, p⟩ := foldlM_inv (l := beside P fs ns f) (f := addAdjacent P cell F |P.flux.getD f 0|) (s := (0, 0))
    (fun done t => t = ((done.map (fun j => weight P cell f j * F.getD j 0)).sum, (done.map (fun j => 1 - weight P cell f j)).sum)) rfl (by
      rintro done x rest t eL rfl
      have hx : x ∈ beside P fs ns f := by rw [eL]; simp
      have hx' := (beside_mem hx).1
      refine ⟨_, ?_, rfl⟩
      unfold addAdjacent
      rw [outflux_ok h hx', bind_ok, omega_ok hq hf hx, bind_ok, rdG (by rw [hF]; exact (h.inside x hx').1), bind_ok]
      simp)
  unfold terms
  rw [adjacent_ok h hf, bind_ok, rdG (h.inside f hf).2.1, bind_ok, ← abs_eq_max_neg, e, bind_ok, fdiv, if_neg hn, bind_ok, fdiv, if_neg hn, bind_ok, p]
  rfl

theorem weight_nonneg {f j : Nat} : 0 ≤ weight P cell f j := by
  unfold weight
  split
  · exact div_nonneg (by linarith) (by linarith [abs_nonneg (P.flux.getD f 0)])
  · exact le_refl _

theorem weight_le {f j : Nat} : weight P cell f j ≤ 1 := by
  unfold weight
  split
  · rename_i q
    have := abs_nonneg (P.flux.getD f 0)
    rw [div_le_one (by linarith)]
    linarith
  · norm_num

theorem weight_lt {f j : Nat} (hf : P.flux.getD f 0 ≠ 0) : weight P cell f j < 1 := by
  unfold weight
  have := abs_pos.2 hf
  split
  · rename_i q
    rw [div_lt_one (by linarith)]
    linarith
  · norm_num

theorem sum_nonneg' {β : Type} (l : List β) (g : β → Rat) (h : ∀ x ∈ l, 0 ≤ g x) : 0 ≤ (l.map g).sum := by
  induction l with
  | nil => simp
  | cons x l ih =>
    rw [List.map_cons, List.sum_cons]
    have := h x (by simp)
    have := ih (fun y hy => h y (by simp [hy]))
    linarith

theorem sum_pos' {β : Type} (l : List β) (g : β → Rat) (h : ∀ x ∈ l, 0 ≤ g x) {y : β} (hy : y ∈ l) (hp : 0 < g y) : 0 < (l.map g).sum := by
  induction l with
  | nil => cases hy
  | cons x l ih =>
    rw [List.map_cons, List.sum_cons]
    have h1 := h x (by simp)
    have h2 := sum_nonneg' l g (fun y hy => h y (by simp [hy]))
    rcases List.mem_cons.1 hy with rfl | hy
    · linarith
    · have := ih (fun y hy => h y (by simp [hy])) hy
      linarith

theorem cterm_nonneg (adj : List Nat) (f : Nat) : 0 ≤ cterm P cell adj f :=
  div_nonneg (sum_nonneg' _ _ (fun j _ => by linarith [weight_le (P := P) (cell := cell) (f := f) (j := j)])) (by positivity)

theorem flux_ne {f : Nat} (h : 0 < out P cell f) : P.flux.getD f 0 ≠ 0 := by
  intro z
  unfold out at h
  rw [z] at h
  split at h <;> simp at h

theorem cterm_pos {adj : List Nat} {f : Nat} (hl : 0 < adj.length) (h : 0 < out P cell f) : 0 < cterm P cell adj f := by
  obtain ⟨j, hj⟩ := List.exists_mem_of_length_pos hl
  exact div_pos (sum_pos' _ _ (fun j _ => by linarith [weight_le (P := P) (cell := cell) (f := f) (j := j)]) hj (by linarith [weight_lt (P := P) (cell := cell) (j := j) (flux_ne h)])) (by exact_mod_cast hl)

/-- Only values at faces with inflow matter. -/
theorem fterm_congr {adj : List Nat} {F G : Nat → Rat} {f : Nat} (h : ∀ j ∈ adj, out P cell j < 0 → F j = G j) : fterm P cell adj F f = fterm P cell adj G f := by
  unfold fterm
  congr 2
  refine List.map_congr_left (fun j hj => ?_)
  by_cases q : out P cell j < 0
  · rw [h j hj q]
  · unfold weight
    rw [if_neg q, zero_mul, zero_mul]

end Opm.TofMultidim
