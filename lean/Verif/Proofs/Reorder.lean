import Verif.Model.Reorder
import Verif.Spec.Grid
import Verif.Proofs.Tarjan
import Mathlib.Tactic.Linarith
import Mathlib.Data.Rat.Lemmas
/-!
# The upwind graph and the solution sequence
-/

namespace Opm.Reorder

open Opm.Graph Relation

variable {g : GridTopo} {flux : List Rat}

/-- loop over the faces of a cell -/
theorem cellLoop_inv (csr : CSR g.nc g.nf g.cellFacepos g.cellFaces) {σ : Type _} {i : Nat}
    (hi : i < g.nc) {body : Nat → Nat → σ → M σ} {s : σ} (P : Nat → σ → Prop) (h0 : P 0 s)
    (hs : ∀ k j f t, (adj g.cellFacepos g.cellFaces i)[k]? = some f → g.cellFaces[j]? = some f →
      P k t → ∃ t', body i j t = .ok t' ∧ P (k + 1) t') :
    ∃ t, cellLoop g body i s = .ok t ∧ P (adj g.cellFacepos g.cellFaces i).length t := by
  unfold cellLoop forRange
  rw [rd_of_getElem? (ia_get csr (i := i) (by omega)), bind_ok,
    rd_of_getElem? (ia_get csr (i := i + 1) hi), bind_ok, adj_length csr hi]
  refine loop_inv P h0 ?_
  intro k t hk hP
  have hk' : k < (adj g.cellFacepos g.cellFaces i).length := by rw [adj_length csr hi]; exact hk
  have h1 := adj_get csr hi hk'
  have h2 := List.getElem?_eq_getElem hk'
  rw [h2] at h1
  exact hs k _ _ t h2 h1.symm hP

/-- outflux as a total function -/
def outq (g : GridTopo) (flux : List Rat) (i f : Nat) : Rat :=
  if (i : Int) = g.faceCells.getD (2 * f) 0 then flux.getD f 0 else -flux.getD f 0

def interior (g : GridTopo) (f : Nat) : Bool :=
  !(g.faceCells.getD (2 * f) 0 == -1 || g.faceCells.getD (2 * f + 1) 0 == -1)

def inflow (g : GridTopo) (flux : List Rat) (i f : Nat) : Bool :=
  interior g f && decide (outq g flux i f < 0)

section
variable (hg : g.Valid) (hfl : flux.length = g.nf)
include hg

theorem fc_get {f : Nat} (hf : f < g.nf) :
    g.Sides f (g.faceCells.getD (2 * f) 0) (g.faceCells.getD (2 * f + 1) 0) := by
  have h1 : 2 * f < g.faceCells.length := by rw [hg.fcLen]; omega
  have h2 : 2 * f + 1 < g.faceCells.length := by rw [hg.fcLen]; omega
  simp [GridTopo.Sides, List.getD_eq_getElem?_getD, h1, h2]

theorem sides_lt {f : Nat} {a b : Int} (h : g.Sides f a b) : f < g.nf := by
  have := (List.getElem?_eq_some_iff.1 h.2).1
  rw [hg.fcLen] at this
  omega

omit hg in
theorem sides_eq {f : Nat} {a b : Int} (h : g.Sides f a b) :
    a = g.faceCells.getD (2 * f) 0 ∧ b = g.faceCells.getD (2 * f + 1) 0 := by
  obtain ⟨h1, h2⟩ := h
  simp [List.getD_eq_getElem?_getD, h1, h2]

theorem hasFace_iff {i f : Nat} (hi : i < g.nc) :
    g.HasFace i f ↔ f ∈ adj g.cellFacepos g.cellFaces i := edge_iff hg.csr hi

theorem hasFace_lt {i f : Nat} (h : g.HasFace i f) : i < g.nc ∧ f < g.nf := by
  have hi := edge_lt hg.csr h
  exact ⟨hi, adj_lt hg.csr hi ((hasFace_iff hg hi).1 h)⟩

theorem hasFace_sides {i f : Nat} (h : g.HasFace i f) :
    g.faceCells.getD (2 * f) 0 = (i : Int) ∨ g.faceCells.getD (2 * f + 1) 0 = (i : Int) :=
  (hg.agree i f _ _ (fc_get hg (hasFace_lt hg h).2)).1 h

theorem out_unique {i i' f : Nat} (h : g.HasFace i f) (h' : g.HasFace i' f)
    (hq : 0 < outq g flux i f) (hq' : 0 < outq g flux i' f) : i = i' := by
  have hs := hasFace_sides hg h
  have hs' := hasFace_sides hg h'
  unfold outq at hq hq'
  by_cases h1 : (i : Int) = g.faceCells.getD (2 * f) 0
  · by_cases h2 : (i' : Int) = g.faceCells.getD (2 * f) 0
    · omega
    · rw [if_pos h1] at hq; rw [if_neg h2] at hq'; linarith
  · by_cases h2 : (i' : Int) = g.faceCells.getD (2 * f) 0
    · rw [if_neg h1] at hq; rw [if_pos h2] at hq'; linarith
    · omega

theorem in_unique {i i' f : Nat} (h : g.HasFace i f) (h' : g.HasFace i' f)
    (hq : outq g flux i f < 0) (hq' : outq g flux i' f < 0) : i = i' := by
  have hs := hasFace_sides hg h
  have hs' := hasFace_sides hg h'
  unfold outq at hq hq'
  by_cases h1 : (i : Int) = g.faceCells.getD (2 * f) 0
  · by_cases h2 : (i' : Int) = g.faceCells.getD (2 * f) 0
    · omega
    · rw [if_pos h1] at hq; rw [if_neg h2] at hq'; linarith
  · by_cases h2 : (i' : Int) = g.faceCells.getD (2 * f) 0
    · rw [if_neg h1] at hq; rw [if_pos h2] at hq'; linarith
    · omega

theorem adj_nodup {i : Nat} (hi : i < g.nc) : (adj g.cellFacepos g.cellFaces i).Nodup := by
  rw [List.nodup_iff_injective_getElem]
  rintro ⟨k, hk⟩ ⟨k', hk'⟩ he
  simp only at he
  have e1 := adj_get hg.csr hi hk
  have e2 := adj_get hg.csr hi hk'
  rw [List.getElem?_eq_getElem hk] at e1
  rw [List.getElem?_eq_getElem hk', ← he] at e2
  rw [adj_length hg.csr hi] at hk hk'
  have := hg.once i _ _ _ _ _ (ia_get hg.csr (i := i) (by omega)) (ia_get hg.csr (i := i + 1) hi)
    (Nat.le_add_right _ k) (by omega) (Nat.le_add_right _ k') (by omega) e1.symm e2.symm
  simp only [Fin.mk.injEq]
  omega

include hfl

theorem outflux_ok {i f : Nat} (hf : f < g.nf) : outflux g flux i f = .ok (outq g flux i f) := by
  unfold outflux outq
  rw [rd_of_getElem? (fc_get hg hf).1, bind_ok]
  have : flux[f]? = some (flux.getD f 0) := by
    simp [List.getD_eq_getElem?_getD, hfl, hf]
  rw [rd_of_getElem? this, bind_ok]
  by_cases h : (i : Int) = g.faceCells.getD (2 * f) 0
  · rw [if_pos h, if_pos (by simpa using h)]
  · rw [if_neg h, if_neg (by simpa using h)]

/-- Direct flow in terms of `outq`. -/
theorem flow_iff {u d f : Nat} : g.Flow flux u d f ↔
    g.HasFace d f ∧ g.HasFace u f ∧ inflow g flux d f = true ∧ 0 < outq g flux u f := by
  constructor
  · rintro ⟨q, hq, ⟨h0, hs⟩ | ⟨h0, hs⟩⟩
    · have hlt := sides_lt hg hs
      obtain ⟨e1, e2⟩ := sides_eq hs
      have hne := hg.distinct f _ _ hs (by omega)
      have hqd : flux.getD f 0 = q := by simp [List.getD_eq_getElem?_getD, hq]
      refine ⟨(hg.agree d f _ _ hs).2 (Or.inr rfl), (hg.agree u f _ _ hs).2 (Or.inl rfl), ?_, ?_⟩
      · unfold inflow interior outq
        rw [← e1, ← e2, hqd, if_neg (fun h => hne h.symm)]
        have : -q < 0 := by linarith
        simp [this]
      · unfold outq
        rw [← e1, if_pos rfl, hqd]; exact h0
    · have hlt := sides_lt hg hs
      obtain ⟨e1, e2⟩ := sides_eq hs
      have hne := hg.distinct f _ _ hs (by omega)
      have hqd : flux.getD f 0 = q := by simp [List.getD_eq_getElem?_getD, hq]
      refine ⟨(hg.agree d f _ _ hs).2 (Or.inl rfl), (hg.agree u f _ _ hs).2 (Or.inr rfl), ?_, ?_⟩
      · unfold inflow interior outq
        rw [← e1, ← e2, hqd, if_pos rfl]
        simp [h0]
      · unfold outq
        rw [← e1, if_neg (fun h => hne h.symm), hqd]; linarith
  · rintro ⟨hd, hu, hin, hout⟩
    have hf := (hasFace_lt hg hd).2
    have hs := fc_get hg hf
    have hsd := hasFace_sides hg hd
    have hsu := hasFace_sides hg hu
    have hq : flux[f]? = some (flux.getD f 0) := by
      simp [List.getD_eq_getElem?_getD, hfl, hf]
    unfold inflow at hin
    simp only [Bool.and_eq_true, decide_eq_true_eq] at hin
    obtain ⟨_, hin⟩ := hin
    refine ⟨_, hq, ?_⟩
    unfold outq at hin hout
    by_cases h1 : (u : Int) = g.faceCells.getD (2 * f) 0
    · rw [if_pos h1] at hout
      left
      refine ⟨hout, ?_⟩
      have h2 : ¬ (d : Int) = g.faceCells.getD (2 * f) 0 := by
        intro h; rw [if_pos h] at hin; linarith
      have h3 : g.faceCells.getD (2 * f + 1) 0 = d := by
        rcases hsd with h | h
        · exact absurd h.symm h2
        · exact h
      rw [h1, ← h3]; exact hs
    · rw [if_neg h1] at hout
      right
      refine ⟨by linarith, ?_⟩
      have h2 : (d : Int) = g.faceCells.getD (2 * f) 0 := by
        by_contra h; rw [if_neg h] at hin; linarith
      have h3 : g.faceCells.getD (2 * f + 1) 0 = u := by
        rcases hsu with h | h
        · exact absurd h.symm h1
        · exact h
      rw [h2, ← h3]; exact hs

/-- interior inflow faces have an upwind cell -/
theorem inflow_upwind {d f : Nat} (hd : g.HasFace d f) (hin : inflow g flux d f = true) :
    ∃ u, g.Flow flux u d f := by
  have hf := (hasFace_lt hg hd).2
  have hs := fc_get hg hf
  have hsd := hasFace_sides hg hd
  unfold inflow interior at hin
  simp only [Bool.and_eq_true, Bool.not_eq_true', Bool.or_eq_false_iff, beq_eq_false_iff_ne, ne_eq,
    decide_eq_true_eq] at hin
  obtain ⟨⟨ha, hb⟩, hq⟩ := hin
  have hqf : flux[f]? = some (flux.getD f 0) := by simp [List.getD_eq_getElem?_getD, hfl, hf]
  have ra := hg.fcRange _ (List.mem_of_getElem? hs.1)
  have rb := hg.fcRange _ (List.mem_of_getElem? hs.2)
  obtain ⟨na, hna⟩ : ∃ n : Nat, g.faceCells.getD (2 * f) 0 = n :=
    ⟨(g.faceCells.getD (2 * f) 0).toNat, by omega⟩
  obtain ⟨nb, hnb⟩ : ∃ n : Nat, g.faceCells.getD (2 * f + 1) 0 = n :=
    ⟨(g.faceCells.getD (2 * f + 1) 0).toNat, by omega⟩
  rw [hna, hnb] at hs
  rw [hna, hnb] at hsd
  unfold outq at hq
  by_cases h1 : (d : Int) = g.faceCells.getD (2 * f) 0
  · rw [if_pos h1] at hq
    have : na = d := by omega
    subst this
    exact ⟨nb, _, hqf, Or.inr ⟨hq, hs⟩⟩
  · rw [if_neg h1] at hq
    have : nb = d := by omega
    subst this
    exact ⟨na, _, hqf, Or.inl ⟨by linarith, hs⟩⟩

/-- First loop nest: the upwind cell of every face with flow is recorded. -/
theorem record_ok {work : List Nat} (hw : g.nf ≤ work.length) :
    ∃ w, loop g.nc (cellLoop g (recordUpwind g flux)) work = .ok w ∧ w.length = work.length ∧
      ∀ i f, g.HasFace i f → 0 < outq g flux i f → w[f]? = some i := by
  obtain ⟨w, e, hl, hP⟩ := loop_inv (n := g.nc) (f := cellLoop g (recordUpwind g flux)) (s := work)
    (fun n w => w.length = work.length ∧
      ∀ i f, i < n → g.HasFace i f → 0 < outq g flux i f → w[f]? = some i)
    ⟨rfl, fun i f hi => by omega⟩ (by
      rintro n w hn ⟨hl, hP⟩
      obtain ⟨w', e, hl', hP'⟩ := cellLoop_inv hg.csr hn (body := recordUpwind g flux) (s := w)
        (fun k w => w.length = work.length ∧
          ∀ i f, (i < n ∧ g.HasFace i f ∨ i = n ∧ f ∈ (adj g.cellFacepos g.cellFaces n).take k) →
            0 < outq g flux i f → w[f]? = some i)
        ⟨hl, by
          rintro i f (⟨h1, h2⟩ | ⟨_, h2⟩)
          · exact hP i f h1 h2
          · simp at h2⟩ (by
          rintro k j f t hk hj ⟨hl, hQ⟩
          have hmem := List.mem_of_getElem? hk
          have hf := adj_lt hg.csr hn hmem
          have hnf : g.HasFace n f := (hasFace_iff hg hn).2 hmem
          have htake : (adj g.cellFacepos g.cellFaces n).take (k + 1) =
              (adj g.cellFacepos g.cellFaces n).take k ++ [f] := by
            rw [List.take_add_one, hk]; rfl
          unfold recordUpwind
          rw [rd_of_getElem? hj, bind_ok, outflux_ok hg hfl hf, bind_ok]
          by_cases hq : 0 < outq g flux n f
          · rw [if_pos hq, wr_ok (by omega)]
            refine ⟨_, rfl, by simp [hl], ?_⟩
            intro i f' hif hq'
            by_cases hff : f = f'
            · subst hff
              have : i = n := by
                rcases hif with ⟨_, h⟩ | ⟨h, _⟩
                · exact out_unique hg h hnf hq' hq
                · exact h
              subst this
              rw [List.getElem?_set_self (by omega)]
            · rw [List.getElem?_set_ne hff]
              refine hQ i f' ?_ hq'
              rcases hif with h | ⟨h1, h2⟩
              · exact Or.inl h
              · rw [htake] at h2
                rcases List.mem_append.1 h2 with h2 | h2
                · exact Or.inr ⟨h1, h2⟩
                · simp at h2; exact absurd h2.symm hff
          · rw [if_neg hq]
            refine ⟨_, rfl, hl, ?_⟩
            intro i f' hif hq'
            refine hQ i f' ?_ hq'
            rcases hif with h | ⟨h1, h2⟩
            · exact Or.inl h
            · rw [htake] at h2
              rcases List.mem_append.1 h2 with h2 | h2
              · exact Or.inr ⟨h1, h2⟩
              · simp at h2; subst h2; subst h1; exact absurd hq' hq)
      refine ⟨w', e, hl', ?_⟩
      intro i f hi hif hq
      refine hP' i f ?_ hq
      rcases Nat.lt_or_ge i n with h | h
      · exact Or.inl ⟨h, hif⟩
      · obtain rfl : i = n := by omega
        rw [List.take_length]
        exact Or.inr ⟨rfl, (hasFace_iff hg hn).1 hif⟩)
  exact ⟨w, e, hl, fun i f hif => hP i f (hasFace_lt hg hif).1 hif⟩

end

/-- faces through which cell `i` receives fluid from another cell -/
def inFaces (g : GridTopo) (flux : List Rat) (i : Nat) : List Nat :=
  (adj g.cellFacepos g.cellFaces i).filter (inflow g flux i)

def upRow (g : GridTopo) (flux : List Rat) (w : List Nat) (i : Nat) : List Nat :=
  (inFaces g flux i).map (fun f => w.getD f 0)

theorem inFaces_bound (hg : g.Valid) :
    (((List.range g.nc).map (inFaces g flux)).flatten).length ≤ g.nf := by
  have hnd : ((List.range g.nc).map (inFaces g flux)).flatten.Nodup := by
    rw [List.nodup_flatten]
    constructor
    · intro l hl
      obtain ⟨i, hi, rfl⟩ := List.mem_map.1 hl
      exact (adj_nodup hg (List.mem_range.1 hi)).filter _
    · rw [List.pairwise_map]
      refine List.nodup_range.imp_of_mem ?_
      intro i j hi hj hij f hfi hfj
      have hi := List.mem_range.1 hi
      have hj := List.mem_range.1 hj
      unfold inFaces at hfi hfj
      rw [List.mem_filter] at hfi hfj
      have h1 : outq g flux i f < 0 := by
        have := hfi.2; unfold inflow at this; simp at this; exact this.2
      have h2 : outq g flux j f < 0 := by
        have := hfj.2; unfold inflow at this; simp at this; exact this.2
      exact hij (in_unique hg ((hasFace_iff hg hi).2 hfi.1) ((hasFace_iff hg hj).2 hfj.1) h1 h2)
  have hsub : ((List.range g.nc).map (inFaces g flux)).flatten ⊆ List.range g.nf := by
    intro f hf
    obtain ⟨l, hl, hfl⟩ := List.mem_flatten.1 hf
    obtain ⟨i, hi, rfl⟩ := List.mem_map.1 hl
    have hi := List.mem_range.1 hi
    exact List.mem_range.2 (adj_lt hg.csr hi (List.mem_filter.1 hfl).1)
  have := (hnd.subperm hsub).length_le
  simpa using this

theorem flatten_length_map {α β : Type _} (f : α → β) (ls : List (List α)) :
    (ls.map (List.map f)).flatten.length = ls.flatten.length := by
  rw [← List.map_flatten, List.length_map]

theorem fill_ok (hg : g.Valid) (hfl : flux.length = g.nf) {w ia ja : List Nat}
    (hw : g.nf ≤ w.length) (hia : ia.length = g.nc + 1) (hja : g.nf ≤ ja.length)
    (hia0 : ia.take 1 = [0]) :
    ∃ s tail, loop g.nc (fillRow g flux w) { p := 0, ia, ja } = .ok s ∧
      s.ia = boundaries 0 ((List.range g.nc).map (upRow g flux w)) ∧
      s.ja = ((List.range g.nc).map (upRow g flux w)).flatten ++ tail := by
  let rows := fun n => (List.range n).map (upRow g flux w)
  have hrows : ∀ n, rows (n + 1) = rows n ++ [upRow g flux w n] := by
    intro n; simp [rows, List.range_succ]
  have hbound : ∀ n, n ≤ g.nc → (rows n).flatten.length ≤ g.nf := by
    intro n hn
    have h1 := inFaces_bound (flux := flux) hg
    have h2 : (rows g.nc).flatten.length ≤ g.nf := by
      refine Nat.le_trans (Nat.le_of_eq ?_) h1
      have : rows g.nc = ((List.range g.nc).map (inFaces g flux)).map (List.map (fun f => w.getD f 0)) := by
        simp [rows, List.map_map, upRow]
      rw [this, flatten_length_map]
    have h3 : ∀ k, (rows n).flatten.length ≤ (rows (n + k)).flatten.length := by
      intro k
      induction k with
      | zero => exact Nat.le_refl _
      | succ k ih =>
        have : rows (n + (k + 1)) = rows (n + k) ++ [upRow g flux w (n + k)] := hrows (n + k)
        rw [this, List.flatten_append, List.length_append]; omega
    have := h3 (g.nc - n)
    rw [show n + (g.nc - n) = g.nc by omega] at this
    omega
  obtain ⟨s, e, h1, h2, h3, h4, h5⟩ := loop_inv (n := g.nc) (f := fillRow g flux w)
    (s := { p := 0, ia, ja })
    (fun n s => s.p = (rows n).flatten.length ∧ s.ja.take s.p = (rows n).flatten ∧
      s.ia.take (n + 1) = boundaries 0 (rows n) ∧ s.ia.length = g.nc + 1 ∧ s.ja.length = ja.length)
    ⟨by simp [rows], by simp [rows], by simpa [rows, boundaries] using hia0, hia, rfl⟩ (by
      rintro n s hn ⟨h1, h2, h3, h4, h5⟩
      obtain ⟨s', e, g1, g2, g3, g4⟩ := cellLoop_inv hg.csr hn (body := appendUpwind g flux w) (s := s)
        (fun k s' => s'.p = s.p + (((adj g.cellFacepos g.cellFaces n).take k).filter (inflow g flux n)).length ∧
          s'.ja.take s'.p = (rows n).flatten ++
            (((adj g.cellFacepos g.cellFaces n).take k).filter (inflow g flux n)).map (fun f => w.getD f 0) ∧
          s'.ia = s.ia ∧ s'.ja.length = ja.length)
        ⟨by simp, by simpa using h2, rfl, h5⟩ (by
          rintro k j f t hk hj ⟨q1, q2, q3, q4⟩
          have hmem := List.mem_of_getElem? hk
          have hf := adj_lt hg.csr hn hmem
          have hs := fc_get hg hf
          have htake : ((adj g.cellFacepos g.cellFaces n).take (k + 1)).filter (inflow g flux n) =
              ((adj g.cellFacepos g.cellFaces n).take k).filter (inflow g flux n) ++
                [f].filter (inflow g flux n) := by
            rw [List.take_add_one, hk, List.filter_append]; rfl
          rw [htake]
          unfold appendUpwind
          rw [rd_of_getElem? hj, bind_ok, rd_of_getElem? hs.1, bind_ok, rd_of_getElem? hs.2, bind_ok]
          by_cases hb : (g.faceCells.getD (2 * f) 0 == -1 || g.faceCells.getD (2 * f + 1) 0 == -1) = true
          · rw [if_pos hb]
            have : inflow g flux n f = false := by unfold inflow interior; rw [hb]; rfl
            refine ⟨_, rfl, ?_⟩
            simp only [List.filter_cons, this, Bool.false_eq_true, if_false, List.filter_nil, List.append_nil]
            exact ⟨q1, q2, q3, q4⟩
          · rw [if_neg hb, outflux_ok hg hfl hf, bind_ok]
            by_cases hq : outq g flux n f < 0
            · rw [if_pos hq]
              have hin : inflow g flux n f = true := by
                unfold inflow interior; simp only [Bool.not_eq_true] at hb; rw [hb]; simpa using hq
              have hwf : w[f]? = some (w.getD f 0) := by
                have : f < w.length := by omega
                simp [List.getD_eq_getElem?_getD, this]
              have hp : t.p < ja.length := by
                have hb1 := hbound (n + 1) hn
                rw [hrows, List.flatten_append, List.length_append] at hb1
                have hle : (((adj g.cellFacepos g.cellFaces n).take (k + 1)).filter (inflow g flux n)).length
                    ≤ (upRow g flux w n).length := by
                  unfold upRow inFaces
                  rw [List.length_map]
                  exact ((List.take_sublist _ _).filter _).length_le
                rw [htake] at hle
                simp only [List.filter_cons, hin, if_true, List.filter_nil, List.length_append,
                  List.length_singleton] at hle
                simp only [List.flatten_cons, List.flatten_nil, List.append_nil] at hb1
                omega
              rw [rd_of_getElem? hwf, bind_ok, wr_ok (by omega), bind_ok]
              refine ⟨_, rfl, ?_⟩
              simp only [List.filter_cons, hin, if_true, List.filter_nil, List.map_append, List.map_cons,
                List.map_nil, List.length_append, List.length_singleton, List.length_set]
              refine ⟨by omega, ?_, q3, q4⟩
              rw [take_set_self _ _ _ (by omega), q2, List.append_assoc]
            · rw [if_neg hq]
              have hin : inflow g flux n f = false := by
                unfold inflow; simp [hq]
              refine ⟨_, rfl, ?_⟩
              simp only [List.filter_cons, hin, Bool.false_eq_true, if_false, List.filter_nil, List.append_nil]
              exact ⟨q1, q2, q3, q4⟩)
      rw [List.take_length] at g1 g2
      have hrow : ((adj g.cellFacepos g.cellFaces n).filter (inflow g flux n)).map (fun f => w.getD f 0) =
          upRow g flux w n := rfl
      rw [hrow] at g2
      have hlen : ((adj g.cellFacepos g.cellFaces n).filter (inflow g flux n)).length =
          (upRow g flux w n).length := by rw [← hrow, List.length_map]
      unfold fillRow
      rw [e, bind_ok, wr_ok (by rw [g3, h4]; omega), bind_ok]
      refine ⟨_, rfl, ?_, ?_, ?_, ?_, g4⟩
      · simp only; rw [hrows, List.flatten_append, List.length_append, g1, hlen, h1]; simp
      · simp only; rw [g2, hrows, List.flatten_append]; simp
      · simp only
        rw [take_set_self _ _ _ (by rw [g3, h4]; omega), g3, h3, hrows, boundaries_snoc, g1, hlen, h1]
        simp
      · simp [g3, h4])
  refine ⟨s, s.ja.drop s.p, e, ?_, ?_⟩
  · rw [List.take_of_length_le (by omega)] at h3; exact h3
  · have := List.take_append_drop s.p s.ja
    rw [h2] at this
    exact this.symm

/-- `make_upwind_graph` builds the graph whose edges lead from each cell to the cells that feed it. -/
theorem upwind_graph (hg : g.Valid) (hfl : flux.length = g.nf) {ia ja work : List Nat}
    (hia : ia.length = g.nc + 1) (hja : g.nf ≤ ja.length) (hwk : g.nf ≤ work.length) :
    ∃ ia' ja' work', makeUpwindGraph g flux ia ja work = .ok (ia', ja', work') ∧
      work'.length = work.length ∧ ja'.length = ja.length ∧ WF g.nc ia' ja' ∧
      ∀ d u, Edge ia' ja' d u ↔ g.FlowsTo flux u d := by
  obtain ⟨w, e1, hwl, hw⟩ := record_ok hg hfl hwk
  have hia0 : (ia.set 0 0).take 1 = [0] := by
    have := take_set_self ia 0 0 (by omega)
    simpa using this
  obtain ⟨s, tail, e2, hsia, hsja⟩ := fill_ok hg hfl (w := w) (ia := ia.set 0 0) (ja := ja) (by omega)
    (by simp [hia]) hja hia0
  have hjl : s.ja.length = ja.length := by
    -- lengths of written arrays never change
    have key : ∀ n t, loop n (fillRow g flux w) { p := 0, ia := ia.set 0 0, ja } = .ok t →
        t.ja.length = ja.length := by
      intro n
      induction n with
      | zero => intro t h; cases h; rfl
      | succ n ih =>
        intro t h
        rw [loop_succ] at h
        obtain ⟨t0, h0, h⟩ := bind_eq_ok.1 h
        have := ih t0 h0
        unfold fillRow at h
        obtain ⟨t1, h1, h⟩ := bind_eq_ok.1 h
        obtain ⟨ia1, _, h⟩ := bind_eq_ok.1 h
        cases h
        simp only
        rw [← this]
        unfold cellLoop at h1
        obtain ⟨a, _, h1⟩ := bind_eq_ok.1 h1
        obtain ⟨b, _, h1⟩ := bind_eq_ok.1 h1
        unfold forRange at h1
        have key2 : ∀ m t2, loop m (fun k s => appendUpwind g flux w n (a + k) s) t0 = .ok t2 →
            t2.ja.length = t0.ja.length := by
          intro m
          induction m with
          | zero => intro t2 h; cases h; rfl
          | succ m ih2 =>
            intro t2 h
            rw [loop_succ] at h
            obtain ⟨t3, h3, h⟩ := bind_eq_ok.1 h
            rw [← ih2 t3 h3]
            unfold appendUpwind at h
            obtain ⟨_, _, h⟩ := bind_eq_ok.1 h
            obtain ⟨_, _, h⟩ := bind_eq_ok.1 h
            obtain ⟨_, _, h⟩ := bind_eq_ok.1 h
            split at h
            · cases h; rfl
            · obtain ⟨_, _, h⟩ := bind_eq_ok.1 h
              split at h
              · obtain ⟨_, _, h⟩ := bind_eq_ok.1 h
                obtain ⟨_, h4, h⟩ := bind_eq_ok.1 h
                cases h
                rw [(wr_eq_ok.1 h4).2]; simp
              · cases h; rfl
        exact key2 _ _ h1
    exact key _ _ e2
  refine ⟨s.ia, s.ja, w, ?_, hwl, hjl, ?_, ?_⟩
  · unfold makeUpwindGraph
    rw [e1, bind_ok, wr_ok (by omega), bind_ok, e2, bind_ok]
  · -- entries are cells
    have hr : ∀ r ∈ (List.range g.nc).map (upRow g flux w), ∀ v ∈ r, v < g.nc := by
      intro r hr v hv
      obtain ⟨i, hi, rfl⟩ := List.mem_map.1 hr
      have hi := List.mem_range.1 hi
      unfold upRow at hv
      obtain ⟨f, hf, rfl⟩ := List.mem_map.1 hv
      obtain ⟨hf1, hf2⟩ := List.mem_filter.1 hf
      obtain ⟨u, hu⟩ := inflow_upwind hg hfl ((hasFace_iff hg hi).2 hf1) hf2
      obtain ⟨_, hu1, _, hu2⟩ := (flow_iff hg hfl).1 hu
      have := hw u f hu1 hu2
      rw [List.getD_eq_getElem?_getD, this]
      exact (hasFace_lt hg hu1).1
    have := csr_rows _ tail hr
    rw [List.length_map, List.length_range] at this
    rw [hsia, hsja]; exact this
  · intro d u
    by_cases hd : d < g.nc
    · have hget : ((List.range g.nc).map (upRow g flux w))[d]? = some (upRow g flux w d) := by
        simp [hd]
      have hadj := adj_rows _ tail hget
      have hcsr : CSR g.nc g.nc s.ia s.ja := by
        have hr : ∀ r ∈ (List.range g.nc).map (upRow g flux w), ∀ v ∈ r, v < g.nc := by
          intro r hr v hv
          obtain ⟨i, hi, rfl⟩ := List.mem_map.1 hr
          have hi := List.mem_range.1 hi
          unfold upRow at hv
          obtain ⟨f, hf, rfl⟩ := List.mem_map.1 hv
          obtain ⟨hf1, hf2⟩ := List.mem_filter.1 hf
          obtain ⟨u, hu⟩ := inflow_upwind hg hfl ((hasFace_iff hg hi).2 hf1) hf2
          obtain ⟨_, hu1, _, hu2⟩ := (flow_iff hg hfl).1 hu
          have := hw u f hu1 hu2
          rw [List.getD_eq_getElem?_getD, this]
          exact (hasFace_lt hg hu1).1
        have := csr_rows _ tail hr
        rw [List.length_map, List.length_range] at this
        rw [hsia, hsja]; exact this
      rw [edge_iff hcsr hd, hsia, hsja, hadj]
      unfold upRow
      constructor
      · intro h
        obtain ⟨f, hf, rfl⟩ := List.mem_map.1 h
        obtain ⟨hf1, hf2⟩ := List.mem_filter.1 hf
        obtain ⟨u, hu⟩ := inflow_upwind hg hfl ((hasFace_iff hg hd).2 hf1) hf2
        obtain ⟨_, hu1, _, hu2⟩ := (flow_iff hg hfl).1 hu
        have := hw u f hu1 hu2
        rw [List.getD_eq_getElem?_getD, this]
        exact ⟨f, hu⟩
      · rintro ⟨f, hf⟩
        obtain ⟨h1, h2, h3, h4⟩ := (flow_iff hg hfl).1 hf
        refine List.mem_map.2 ⟨f, List.mem_filter.2 ⟨(hasFace_iff hg hd).1 h1, h3⟩, ?_⟩
        rw [List.getD_eq_getElem?_getD, hw u f h2 h4]; rfl
    · constructor
      · rintro ⟨_, b, _, _, hb, _⟩
        have := (List.getElem?_eq_some_iff.1 hb).1
        rw [hsia, boundaries_length] at this
        simp at this
        omega
      · rintro ⟨f, hf⟩
        exact absurd (hasFace_lt hg ((flow_iff hg hfl).1 hf).1).1 hd

/-- `compute_sequence` as a list of blocks. -/
theorem sequence_main (hg : g.Valid) (hfl : flux.length = g.nf) (hnc : 0 < g.nc)
    {sequence components : List Nat} (hs : sequence.length = g.nc) (hc : components.length = g.nc + 1)
    {fuel : Nat} (hfuel : 2 * g.nc + 2 * g.nf + 2 ≤ fuel) :
    ∃ (cs : List (List Nat)) (tail : List Nat), computeSequence fuel g flux sequence components =
        .ok { vert := cs.flatten, comp := boundaries 0 cs ++ tail, ncomp := cs.length } ∧
      cs.flatten.Perm (List.range g.nc) ∧ (∀ C ∈ cs, C ≠ []) ∧
      (∀ C ∈ cs, ∀ u ∈ C, ∀ v, v ∈ C ↔
        ReflTransGen (g.FlowsTo flux) u v ∧ ReflTransGen (g.FlowsTo flux) v u) ∧
      (∀ (i : Nat) C, cs[i]? = some C → ∀ d ∈ C, ∀ u, g.FlowsTo flux u d →
        ∃ (j : Nat) (D : List Nat), j ≤ i ∧ cs[j]? = some D ∧ u ∈ D) := by
  obtain ⟨ia, ja, work, e1, hwl, hjl, hwf, hE⟩ := upwind_graph hg hfl
    (ia := List.replicate (g.nc + 1) 0) (ja := List.replicate g.nf 0)
    (work := List.replicate (max g.nf (3 * g.nc)) 0) (by simp) (by simp) (by simp)
  rw [List.length_replicate] at hwl hjl
  obtain ⟨cs, tail, e2, hp, hne, hscc, htopo⟩ := Tarjan.tarjan_main hwf hs hc (work := work) (by omega)
    (fuel := fuel) (by omega)
  have hlen : cs.flatten.length = g.nc := by simpa using hp.length_eq
  have hcl := Tarjan.length_comps_le cs hne
  have hpos : 0 < cs.length := by
    rcases Nat.eq_zero_or_pos cs.length with h | h
    · have := List.length_eq_zero_iff.1 h
      subst this; simp at hlen; omega
    · exact h
  have hrev : ∀ u v, Reach ia ja u v ↔ ReflTransGen (g.FlowsTo flux) v u := by
    intro u v
    have h1 : Edge ia ja = Function.swap (g.FlowsTo flux) := by
      funext x y; exact propext (hE x y)
    unfold Reach
    rw [h1, Relation.reflTransGen_swap]
  refine ⟨cs, tail, ?_, hp, hne, ?_, ?_⟩
  · unfold computeSequence computeReorderSequenceGraph
    simp only
    rw [e1]
    simp only [bind_ok]
    rw [e2]
    simp only [bind_ok]
    rw [check_ok (by simpa using hpos), bind_ok, check_ok (by simp; omega)]
    rfl
  · intro C hC u hu v
    rw [hscc C hC u hu v, hrev, hrev]
    exact And.comm
  · intro i C hC d hd u hu
    exact htopo i C hC d hd u ((hE d u).2 hu)

end Opm.Reorder
