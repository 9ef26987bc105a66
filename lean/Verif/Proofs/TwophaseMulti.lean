import Verif.Proofs.TwophaseReorder
import Verif.Props.Reorder
/-!
# Two-phase transport by reordering: cells in circulation
-/

namespace Opm.TwophaseReorder
open Opm Graph

theorem flowsTo_ne {g : GridTopo} {flux : List Rat} (hv : g.Valid) {u d : Nat} (h : g.FlowsTo flux u d) : u ≠ d := by
  rintro rfl
  obtain ⟨f, q, -, h | h⟩ := h
  · exact hv.distinct f _ _ h.2 (by omega) rfl
  · exact hv.distinct f _ _ h.2 (by omega) rfl

theorem index_inj {C : List Nat} (hn : C.Nodup) {i j c : Nat} (hi : C[i]? = some c) (hj : C[j]? = some c) : i = j := by
  obtain ⟨h1, e1⟩ := List.getElem?_eq_some_iff.1 hi
  obtain ⟨h2, e2⟩ := List.getElem?_eq_some_iff.1 hj
  exact (List.Nodup.getElem_inj_iff hn).1 (e1.trans e2.symm)

theorem mem_take_succ {C : List Nat} {i d : Nat} (hi : i < C.length) : d ∈ C.take (i + 1) ↔ d ∈ C.take i ∨ d = C[i] := by
  rw [List.take_add_one, List.getElem?_eq_getElem hi, List.mem_append]
  simp only [Option.toList_some, List.mem_singleton]

/-- `pos` tells where in `C` a cell is. -/
def PosOf (nc : Nat) (C : List Nat) (pos : List Int) : Prop :=
  pos.length = nc ∧ ∀ d < nc, (∃ i : Nat, C[i]? = some d ∧ pos[d]? = some (i : Int)) ∨ (d ∉ C ∧ pos[d]? = some (-1))

theorem positions_ok {nc : Nat} {C : List Nat} (hlt : ∀ c ∈ C, c < nc) : ∃ pos, positions nc C = .ok pos ∧ PosOf nc C pos := by
  obtain ⟨pos, e, h1, h2⟩ := loop_inv (n := C.length) (s := List.replicate nc (-1)) (f := fun i pos => do
      let c ← rd C i
      wr pos c (i : Int))
    (fun k (pos : List Int) => pos.length = nc ∧ ∀ d < nc, (∃ i : Nat, C[i]? = some d ∧ pos[d]? = some (i : Int)) ∨ (d ∉ C.take k ∧ pos[d]? = some (-1)))
    ⟨by simp, fun d hd => .inr ⟨by simp, by simp [hd]⟩⟩ (by
      rintro i pos hi ⟨h1, h2⟩
      have hg := List.getElem?_eq_getElem hi
      have hc := hlt _ (List.getElem_mem hi)
      rw [rd_of_getElem? hg, bind_ok, wr_ok (by omega)]
      refine ⟨_, rfl, by simp [h1], fun d hd => ?_⟩
      by_cases hdc : d = C[i]
      · exact .inl ⟨i, by rw [hdc]; exact hg, by simp [hdc, h1, hc]⟩
      · rw [List.getElem?_set_ne (fun h => hdc h.symm)]
        rcases h2 d hd with h | ⟨h3, h4⟩
        · exact .inl h
        · refine .inr ⟨?_, h4⟩
          rw [mem_take_succ hi]
          exact fun h => h.elim h3 hdc)
  refine ⟨pos, e, h1, ?_⟩
  rwa [List.take_length] at h2

theorem initSats_ok {E : Env} {C : List Nat} (hlt : ∀ c ∈ C, c < E.g.nc) {s : State} (hs : Fits E s) :
    ∃ s0, initSats C s = .ok s0 ∧ ∀ (i : Nat) c, C[i]? = some c → s0[i]? = some (s.sat.getD c 0) := by
  obtain ⟨s0, e, h1, h2⟩ := loop_inv (n := C.length) (s := List.replicate C.length (0 : Rat)) (f := fun i s0 => do
      let c ← rd C i
      let x ← rd s.sat c
      wr s0 i x)
    (fun k (s0 : List Rat) => s0.length = C.length ∧ ∀ (i : Nat) c, i < k → C[i]? = some c → s0[i]? = some (s.sat.getD c 0))
    ⟨by simp, by simp⟩ (by
      rintro i s0 hi ⟨h1, h2⟩
      have hg := List.getElem?_eq_getElem hi
      have hc := hlt _ (List.getElem_mem hi)
      rw [rd_of_getElem? hg, bind_ok, rd_of_getElem? (getElem?_getD (by rw [hs.sat]; exact hc)), bind_ok, wr_ok (by omega)]
      refine ⟨_, rfl, by simp [h1], fun j c hj hjc => ?_⟩
      by_cases hji : j = i
      · subst hji
        rw [hg] at hjc
        cases hjc
        simp [h1, hi]
      · rw [List.getElem?_set_ne (fun h => hji h.symm)]
        exact h2 j c (by omega) hjc)
  refine ⟨s0, e, fun i c hi => h2 i c ?_ hi⟩
  exact (List.getElem?_eq_some_iff.1 hi).1

theorem initFlows_ok {E : Env} {C : List Nat} (hlt : ∀ c ∈ C, c < E.g.nc) {s : State} (hs : Fits E s) :
    ∃ s', initFlows E C s = .ok s' ∧ Fits E s' ∧ s'.sat = s.sat ∧ s'.iters = s.iters ∧ (∀ d, d ∉ C → s'.ff.getD d 0 = s.ff.getD d 0) ∧
      ∀ d ∈ C, s'.ff.getD d 0 = frac E d (s.sat.getD d 0) := by
  obtain ⟨s', e, h1, h2, h3, h4, h5⟩ := loop_inv (n := C.length) (s := s) (f := fun i s => do
      let c ← rd C i
      let x ← rd s.sat c
      let ff ← wr s.ff c (fracFlow E.fluid x c)
      .ok { s with ff })
    (fun k (s' : State) => Fits E s' ∧ s'.sat = s.sat ∧ s'.iters = s.iters ∧ (∀ d, d ∉ C → s'.ff.getD d 0 = s.ff.getD d 0) ∧
      ∀ d ∈ C.take k, s'.ff.getD d 0 = frac E d (s.sat.getD d 0))
    ⟨hs, rfl, rfl, fun _ _ => rfl, by simp⟩ (by
      rintro i s' hi ⟨h1, h2, h3, h4, h5⟩
      have hg := List.getElem?_eq_getElem hi
      have hc := hlt _ (List.getElem_mem hi)
      rw [rd_of_getElem? hg, bind_ok, h2, rd_of_getElem? (getElem?_getD (by rw [hs.sat]; exact hc)), bind_ok, wr_ok (by rw [h1.ff]; exact hc), bind_ok]
      refine ⟨_, rfl, ⟨hs.sat, by simp [h1.ff], h1.iters⟩, rfl, h3, fun d hd => ?_, fun d hd => ?_⟩
      · have : C[i] ≠ d := fun h => hd (h ▸ List.getElem_mem hi)
        simp only [List.getD_eq_getElem?_getD, List.getElem?_set_ne this]
        simpa [List.getD_eq_getElem?_getD] using h4 d hd
      · by_cases hdc : C[i] = d
        · subst hdc
          simp only [List.getD_eq_getElem?_getD]
          simp only [List.getElem?_set_self (show C[i] < s'.ff.length by rw [h1.ff]; exact hc), Option.getD_some]
          rfl
        · have hd' : d ∈ C.take i := by
            rcases (mem_take_succ hi).1 hd with hd | hd
            · exact hd
            · exact absurd hd.symm hdc
          have := h5 d hd'
          simp only [List.getD_eq_getElem?_getD, List.getElem?_set_ne hdc] at this ⊢
          exact this)
  rw [List.take_length] at h5
  exact ⟨s', e, h1, h2, h3, h4, h5⟩

theorem markDownwind_ok {E : Env} {C ia ja : List Nat} {pos : List Int} (hwf : WF E.g.nc ia ja) (hE : ∀ c d, Edge ia ja c d ↔ E.g.FlowsTo E.flux c d)
    (hp : PosOf E.g.nc C pos) (hn : C.Nodup) {c : Nat} (hc : c < E.g.nc) {marks : List Nat} (hm : marks.length = C.length) :
    ∃ marks', markDownwind ia ja pos c marks = .ok marks' ∧ marks'.length = C.length ∧
      ∀ j : Nat, marks'.getD j 1 = 0 → marks.getD j 1 = 0 ∧ ∀ d, E.g.FlowsTo E.flux c d → C[j]? ≠ some d := by
  have ga := Graph.ia_get hwf (i := c) (by omega)
  have gb := Graph.ia_get hwf (i := c + 1) hc
  have hab : ia.getD c 0 ≤ ia.getD (c + 1) 0 := Graph.ia_mono hwf (i := c) (j := c + 1) (by omega) hc
  unfold markDownwind
  rw [rd_of_getElem? ga, bind_ok, rd_of_getElem? gb, bind_ok]
  obtain ⟨m', e, h1, h2⟩ := forRange_inv (s := marks) (f := fun j marks => do
      let d ← rd ja j
      let ci ← rd pos d
      if ci ≠ -1 then wrI marks ci 1 else .ok marks) hab
    (fun k (m : List Nat) => m.length = C.length ∧ ∀ j : Nat, m.getD j 1 = 0 → marks.getD j 1 = 0 ∧ ∀ e, ia.getD c 0 ≤ e → e < k → ∀ d, ja[e]? = some d → C[j]? ≠ some d)
    ⟨hm, fun j hj => ⟨hj, fun e h1 h2 => by omega⟩⟩ (by
      rintro i m hi1 hi2 ⟨h1, h2⟩
      have hl : i < ja.length := by
        have := Graph.ia_bound hwf (i := c + 1) hc
        omega
      have hj := List.getElem?_eq_getElem hl
      have hd : ja[i] < E.g.nc := hwf.range _ i _ (Graph.ia_get hwf (le_refl _)) (lt_of_lt_of_le hi2 (Graph.ia_mono hwf hc (le_refl _))) hj
      rw [rd_of_getElem? hj, bind_ok]
      rcases hp.2 _ hd with ⟨k, hk, hpk⟩ | ⟨hnot, hpk⟩
      · rw [rd_of_getElem? hpk, bind_ok, if_pos (by omega), wrI_natCast]
        have hkl : k < m.length := by rw [h1]; exact (List.getElem?_eq_some_iff.1 hk).1
        rw [wr_ok hkl]
        refine ⟨_, rfl, by simp [h1], fun j hj0 => ?_⟩
        by_cases hjk : j = k
        · subst hjk
          simp [List.getD_eq_getElem?_getD, hkl] at hj0
        · simp only [List.getD_eq_getElem?_getD, List.getElem?_set_ne (fun h => hjk h.symm)] at hj0
          obtain ⟨h3, h4⟩ := h2 j (by rw [List.getD_eq_getElem?_getD]; exact hj0)
          refine ⟨h3, fun e' he1 he2 d hd' hcd => ?_⟩
          rcases Nat.lt_or_ge e' i with h | h
          · exact h4 e' he1 h d hd' hcd
          · obtain rfl : e' = i := by omega
            rw [hj] at hd'
            cases hd'
            exact hjk (index_inj hn hcd hk)
      · rw [rd_of_getElem? hpk, bind_ok, if_neg (by simp)]
        refine ⟨_, rfl, h1, fun j hj0 => ?_⟩
        obtain ⟨h3, h4⟩ := h2 j hj0
        refine ⟨h3, fun e' he1 he2 d hd' hcd => ?_⟩
        rcases Nat.lt_or_ge e' i with h | h
        · exact h4 e' he1 h d hd' hcd
        · obtain rfl : e' = i := by omega
          rw [hj] at hd'
          cases hd'
          exact hnot (List.mem_of_getElem? hcd))
  refine ⟨m', e, h1, fun j hj => ⟨(h2 j hj).1, fun d hd hcd => ?_⟩⟩
  obtain ⟨a, b, e', ha, hb, he1, he2, he⟩ := (hE c d).2 hd
  rw [ga] at ha
  rw [gb] at hb
  cases ha
  cases hb
  exact (h2 j hj).2 e' he1 he2 d he hcd

end Opm.TwophaseReorder
