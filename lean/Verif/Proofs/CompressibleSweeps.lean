import Verif.Proofs.CompressibleReorder
import Verif.Proofs.TwophaseSweeps
/-!
# Compressible two-phase transport by reordering: cells in circulation, sweeps and calls

The proofs follow those for the incompressible solver.
-/

namespace Opm.CompressibleReorder
open Opm Graph
open Opm.TwophaseReorder (State Iter positions initSats newMarks markDownwind sweepTol sweepTol_pos drift drift_step drift_same PosOf positions_ok index_inj mem_take_succ flowsTo_ne downwind_graph flowsTo_neg)

theorem initSats_ok {E : Env} {C : List Nat} (hlt : ∀ c ∈ C, c < E.g.nc) {s : State} (hs : Fits E s) :
    ∃ s0, initSats C s = .ok s0 ∧ ∀ (i : Nat) c, C[i]? = some c → s0[i]? = some (s.sat.getD c 0) := by
  obtain ⟨s0, e, h1, h2⟩ := loop_inv (n := C.length) (s := List.replicate C.length (0 : Rat)) (f := fun i s0 => do
      let c ← rd C i
      let x ← rd s.sat c
      wr s0 i x)
    (fun k (s0 : List Rat) => s0.length = C.length ∧ ∀ (i : Nat) c, i < k → C[i]? = some c → s0[i]? = some (s.sat.getD c 0))
    ⟨by simp, by simp⟩ (by
      rintro i s0 hi ⟨h1, h2⟩
      have hg := List.getElem?_eq_getElem hi
      have hc := hlt _ (List.getElem_mem hi)
      rw [rd_of_getElem? hg, bind_ok, rd_of_getElem? (getElem?_getD (by rw [hs.sat]; exact hc)), bind_ok, wr_ok (by omega)]
      refine ⟨_, rfl, by simp [h1], fun j c hj hjc => ?_⟩
      by_cases hji : j = i
      · subst hji
        rw [hg] at hjc
        cases hjc
        simp [h1, hi]
      · rw [List.getElem?_set_ne (fun h => hji h.symm)]
        exact h2 j c (by omega) hjc)
  refine ⟨s0, e, fun i c hi => h2 i c ?_ hi⟩
  exact (List.getElem?_eq_some_iff.1 hi).1


theorem initFlows_ok {E : Env} {C : List Nat} (hlt : ∀ c ∈ C, c < E.g.nc) {s : State} (hs : Fits E s) :
    ∃ s', initFlows E C s = .ok s' ∧ Fits E s' ∧ s'.sat = s.sat ∧ (∀ d, d ∉ C → s'.ff.getD d 0 = s.ff.getD d 0) ∧
      ∀ d ∈ C, s'.ff.getD d 0 = frac E d (s.sat.getD d 0) := by
  obtain ⟨s', e, h1, h2, h4, h5⟩ := loop_inv (n := C.length) (s := s) (f := fun i s => do
      let c ← rd C i
      let x ← rd s.sat c
      let ff ← wr s.ff c (fracFlow E x c)
      .ok { s with ff })
    (fun k (s' : State) => Fits E s' ∧ s'.sat = s.sat ∧ (∀ d, d ∉ C → s'.ff.getD d 0 = s.ff.getD d 0) ∧
      ∀ d ∈ C.take k, s'.ff.getD d 0 = frac E d (s.sat.getD d 0))
    ⟨hs, rfl, fun _ _ => rfl, by simp⟩ (by
      rintro i s' hi ⟨h1, h2, h4, h5⟩
      have hg := List.getElem?_eq_getElem hi
      have hc := hlt _ (List.getElem_mem hi)
      rw [rd_of_getElem? hg, bind_ok, h2, rd_of_getElem? (getElem?_getD (by rw [hs.sat]; exact hc)), bind_ok, wr_ok (by rw [h1.ff]; exact hc), bind_ok]
      refine ⟨_, rfl, ⟨hs.sat, by simp [h1.ff]⟩, rfl, fun d hd => ?_, fun d hd => ?_⟩
      · have : C[i] ≠ d := fun h => hd (h ▸ List.getElem_mem hi)
        simp only [List.getD_eq_getElem?_getD, List.getElem?_set_ne this]
        simpa [List.getD_eq_getElem?_getD] using h4 d hd
      · by_cases hdc : C[i] = d
        · subst hdc
          simp only [List.getD_eq_getElem?_getD]
          simp only [List.getElem?_set_self (show C[i] < s'.ff.length by rw [h1.ff]; exact hc), Option.getD_some]
          rfl
        · have hd' : d ∈ C.take i := by
            rcases (mem_take_succ hi).1 hd with hd | hd
            · exact hd
            · exact absurd hd.symm hdc
          have := h5 d hd'
          simp only [List.getD_eq_getElem?_getD, List.getElem?_set_ne hdc] at this ⊢
          exact this)
  rw [List.take_length] at h5
  exact ⟨s', e, h1, h2, h4, h5⟩


theorem markDownwind_ok {E : Env} {C ia ja : List Nat} {pos : List Int} (hwf : WF E.g.nc ia ja) (hE : ∀ c d, Edge ia ja c d ↔ E.g.FlowsTo E.flux c d)
    (hp : PosOf E.g.nc C pos) (hn : C.Nodup) {c : Nat} (hc : c < E.g.nc) {marks : List Nat} (hm : marks.length = C.length) :
    ∃ marks', markDownwind ia ja pos c marks = .ok marks' ∧ marks'.length = C.length ∧
      ∀ j : Nat, marks'.getD j 1 = 0 → marks.getD j 1 = 0 ∧ ∀ d, E.g.FlowsTo E.flux c d → C[j]? ≠ some d := by
  have ga := Graph.ia_get hwf (i := c) (by omega)
  have gb := Graph.ia_get hwf (i := c + 1) hc
  have hab : ia.getD c 0 ≤ ia.getD (c + 1) 0 := Graph.ia_mono hwf (i := c) (j := c + 1) (by omega) hc
  unfold markDownwind
  rw [rd_of_getElem? ga, bind_ok, rd_of_getElem? gb, bind_ok]
  obtain ⟨m', e, h1, h2⟩ := forRange_inv (s := marks) (f := fun j marks => do
      let d ← rd ja j
      let ci ← rd pos d
      if ci ≠ -1 then wrI marks ci 1 else .ok marks) hab
    (fun k (m : List Nat) => m.length = C.length ∧ ∀ j : Nat, m.getD j 1 = 0 → marks.getD j 1 = 0 ∧ ∀ e, ia.getD c 0 ≤ e → e < k → ∀ d, ja[e]? = some d → C[j]? ≠ some d)
    ⟨hm, fun j hj => ⟨hj, fun e h1 h2 => by omega⟩⟩ (by
      rintro i m hi1 hi2 ⟨h1, h2⟩
      have hl : i < ja.length := by
        have := Graph.ia_bound hwf (i := c + 1) hc
        omega
      have hj := List.getElem?_eq_getElem hl
      have hd : ja[i] < E.g.nc := hwf.range _ i _ (Graph.ia_get hwf (le_refl _)) (lt_of_lt_of_le hi2 (Graph.ia_mono hwf hc (le_refl _))) hj
      rw [rd_of_getElem? hj, bind_ok]
      rcases hp.2 _ hd with ⟨k, hk, hpk⟩ | ⟨hnot, hpk⟩
      · rw [rd_of_getElem? hpk, bind_ok, if_pos (by omega), wrI_natCast]
        have hkl : k < m.length := by rw [h1]; exact (List.getElem?_eq_some_iff.1 hk).1
        rw [wr_ok hkl]
        refine ⟨_, rfl, by simp [h1], fun j hj0 => ?_⟩
        by_cases hjk : j = k
        · subst hjk
          simp [List.getD_eq_getElem?_getD, hkl] at hj0
        · simp only [List.getD_eq_getElem?_getD, List.getElem?_set_ne (fun h => hjk h.symm)] at hj0
          obtain ⟨h3, h4⟩ := h2 j (by rw [List.getD_eq_getElem?_getD]; exact hj0)
          refine ⟨h3, fun e' he1 he2 d hd' hcd => ?_⟩
          rcases Nat.lt_or_ge e' i with h | h
          · exact h4 e' he1 h d hd' hcd
          · obtain rfl : e' = i := by omega
            rw [hj] at hd'
            cases hd'
            exact hjk (index_inj hn hcd hk)
      · rw [rd_of_getElem? hpk, bind_ok, if_neg (by simp)]
        refine ⟨_, rfl, h1, fun j hj0 => ?_⟩
        obtain ⟨h3, h4⟩ := h2 j hj0
        refine ⟨h3, fun e' he1 he2 d hd' hcd => ?_⟩
        rcases Nat.lt_or_ge e' i with h | h
        · exact h4 e' he1 h d hd' hcd
        · obtain rfl : e' = i := by omega
          rw [hj] at hd'
          cases hd'
          exact hnot (List.mem_of_getElem? hcd))
  refine ⟨m', e, h1, fun j hj => ⟨(h2 j hj).1, fun d hd hcd => ?_⟩⟩
  obtain ⟨a, b, e', ha, hb, he1, he2, he⟩ := (hE c d).2 hd
  rw [ga] at ha
  rw [gb] at hb
  cases ha
  cases hb
  exact (h2 j hj).2 e' he1 he2 d he hcd


/-- Between two cells of the sweeps over the cells `C`, which started from `s`. -/
structure SweepInv (E : Env) (C : List Nat) (s : State) (K i : Nat) (st : State) (marks : List Nat) : Prop where
  fits : Fits E st
  outside : ∀ d, d ∉ C → SameAt s st d
  inside : ∀ d ∈ C, (0 ≤ st.sat.getD d 0 ∧ st.sat.getD d 0 ≤ 1) ∧ st.ff.getD d 0 = frac E d (st.sat.getD d 0)
  len : marks.length = C.length
  done : ∀ (j : Nat) c, C[j]? = some c → marks.getD j 1 = 0 → ∃ y : Nat → Rat, (∀ u, u ∉ C → y u = s.sat.getD u 0) ∧
    (∀ (k : Nat) u, C[k]? = some u → E.g.FlowsTo E.flux u c → |y u - st.sat.getD u 0| ≤ drift K i k) ∧ (∀ u ∈ C, 0 ≤ y u ∧ y u ≤ 1) ∧
    Solved E c (s.sat.getD c 0) y (st.sat.getD c 0)

/-- What the cells `C` get from outside. -/
structure Ready (E : Env) (C : List Nat) (s : State) : Prop where
  fits : Fits E s
  up : ∀ c ∈ C, ∀ u, u ∉ C → E.g.FlowsTo E.flux u c → (0 ≤ s.sat.getD u 0 ∧ s.sat.getD u 0 ≤ 1) ∧ s.ff.getD u 0 = frac E u (s.sat.getD u 0)
  start : ∀ c ∈ C, 0 ≤ s.sat.getD c 0 ∧ s.sat.getD c 0 ≤ 1

theorem SweepInv.next {E : Env} {C : List Nat} {s st : State} {K i : Nat} {marks : List Nat} (h : SweepInv E C s K i st marks) : SweepInv E C s K (i + 1) st marks where
  fits := h.fits
  outside := h.outside
  inside := h.inside
  len := h.len
  done := fun j c hj hm => by
    obtain ⟨y, h1, h2, h3⟩ := h.done j c hj hm
    exact ⟨y, h1, fun k u hk hu => le_trans (h2 k u hk hu) (drift_step K i k), h3⟩

theorem updateCell_ok {E : Env} (h : EnvOk E) {C ia ja : List Nat} {pos : List Int} {s0 : List Rat} (hwf : WF E.g.nc ia ja) (hE : ∀ c d, Edge ia ja c d ↔ E.g.FlowsTo E.flux c d)
    (hlt : ∀ c ∈ C, c < E.g.nc) (hn : C.Nodup) (hp : PosOf E.g.nc C pos) {s : State} (hr : Ready E C s)
    (hs0 : ∀ (i : Nat) c, C[i]? = some c → s0[i]? = some (s.sat.getD c 0)) {K i : Nat} (hi : i < C.length) {t : Iter} (ht : SweepInv E C s K i t.st t.marks) :
    ∃ t', updateCell E ia ja C pos s0 i t = .ok t' ∧ SweepInv E C s K (i + 1) t'.st t'.marks ∧ t.count ≤ t'.count ∧
      (t'.count = t.count → t' = t ∧ t.marks.getD i 1 = 0) := by
  have hg := List.getElem?_eq_getElem hi
  have hcm : C[i] ∈ C := List.getElem_mem hi
  generalize hcdef : C[i] = c at hg hcm
  have hc := hlt _ hcm
  have hmi : t.marks[i]? = some (t.marks.getD i 1) := by
    have : i < t.marks.length := by rw [ht.len]; exact hi
    simp [List.getD_eq_getElem?_getD, this]
  unfold updateCell
  rw [rd_of_getElem? hmi, bind_ok]
  by_cases hm : t.marks.getD i 1 = 0
  · rw [if_pos hm]
    exact ⟨t, rfl, ht.next, le_refl _, fun _ => ⟨rfl, hm⟩⟩
  · rw [if_neg hm, rd_of_getElem? hg, bind_ok, rd_of_getElem? (getElem?_getD (by rw [ht.fits.sat]; exact hc)), bind_ok, rd_of_getElem? (hs0 i c hg), bind_ok,
      wr_ok (by rw [ht.fits.sat]; exact hc), bind_ok]
    -- the state in which the cell is solved
    have hset : ∀ d, (t.st.sat.set c (s.sat.getD c 0)).getD d 0 = if d = c then s.sat.getD c 0 else t.st.sat.getD d 0 := by
      intro d
      by_cases hd : d = c
      · subst hd
        rw [if_pos rfl]
        simp only [List.getD_eq_getElem?_getD]
        simp only [List.getElem?_set_self (show d < t.st.sat.length by rw [ht.fits.sat]; exact hc), Option.getD_some]
      · rw [if_neg hd]
        simp only [List.getD_eq_getElem?_getD, List.getElem?_set_ne (fun h => hd h.symm)]
    obtain ⟨st', e, f1, f2, f3, f4, f6⟩ := solveSingleCell_ok h (s := { t.st with sat := t.st.sat.set c (s.sat.getD c 0) }) hc ⟨by simp [ht.fits.sat], ht.fits.ff⟩
      (fun u hu => by
        have hne := flowsTo_ne h.valid hu
        simp only [hset, if_neg hne]
        by_cases huC : u ∈ C
        · exact ht.inside u huC
        · have h1 := hr.up c hcm u huC hu
          obtain ⟨h2, h3⟩ := ht.outside u huC
          rw [h2, h3]
          exact h1)
      (by simp only [hset, if_true]; exact (hr.start c hcm).1) (by simp only [hset, if_true]; exact (hr.start c hcm).2)
    simp only [hset, if_true] at f6
    have f2' : ∀ d, d ≠ c → SameAt t.st st' d := by
      intro d hd
      obtain ⟨h1, h2⟩ := f2 d hd
      simp only [hset, if_neg hd] at h1
      exact ⟨h1, h2⟩
    rw [e, bind_ok, rd_of_getElem? (getElem?_getD (by rw [f1.sat]; exact hc)), bind_ok]
    -- the marks
    have hmarks : ∃ m', newMarks ia ja pos c (t.st.sat.getD c 0) (st'.sat.getD c 0) t.marks = .ok m' ∧
        m'.length = C.length ∧ ∀ j : Nat, m'.getD j 1 = 0 → t.marks.getD j 1 = 0 ∧
          (sweepTol < |st'.sat.getD c 0 - t.st.sat.getD c 0| → ∀ d, E.g.FlowsTo E.flux c d → C[j]? ≠ some d) := by
      unfold newMarks
      rw [← abs_eq_max_neg]
      split
      · obtain ⟨m', e1, e2, e3⟩ := markDownwind_ok hwf hE hp hn hc ht.len
        exact ⟨m', e1, e2, fun j hj => ⟨(e3 j hj).1, fun _ => (e3 j hj).2⟩⟩
      · rename_i hno
        exact ⟨t.marks, rfl, ht.len, fun j hj => ⟨hj, fun hgt => absurd hgt hno⟩⟩
    obtain ⟨m', e1, e2, e3⟩ := hmarks
    rw [e1, bind_ok, wr_ok (by omega), bind_ok]
    refine ⟨_, rfl, ⟨f1, fun d hd => ?_, fun d hd => ?_, by simp [e2], fun j d hj hmj => ?_⟩, by simp, fun hcount => by simp at hcount⟩
    · have hdc : d ≠ c := fun h => hd (h ▸ hcm)
      obtain ⟨h1, h2⟩ := ht.outside d hd
      obtain ⟨h4, h5⟩ := f2' d hdc
      exact ⟨h4.trans h1, h5.trans h2⟩
    · by_cases hdc : d = c
      · subst hdc
        exact ⟨f3, f4⟩
      · obtain ⟨h4, h5⟩ := f2' d hdc
        simp only
        rw [h4, h5]
        exact ht.inside d hd
    · by_cases hdc : d = c
      · subst hdc
        refine ⟨fun u => if u = d then s.sat.getD d 0 else t.st.sat.getD u 0, fun u hu => ?_, fun k u hk hu => ?_, fun u hu => ?_, f6⟩
        · simp only
          rw [if_neg (fun hh : u = d => hu (by rw [hh]; exact hcm))]
          exact (ht.outside u hu).1
        · have hne := flowsTo_ne h.valid hu
          simp only
          rw [if_neg hne, (f2' u hne).1, sub_self, abs_zero]
          unfold drift
          refine mul_nonneg ?_ sweepTol_pos.le
          split <;> positivity
        · simp only
          split
          · exact hr.start d hcm
          · exact (ht.inside u hu).1
      · have hji : j ≠ i := by
          rintro rfl
          rw [hg] at hj
          exact hdc (Option.some.inj hj).symm
        have hmj' : m'.getD j 1 = 0 := by
          simp only [List.getD_eq_getElem?_getD, List.getElem?_set_ne (fun h => hji h.symm)] at hmj
          rw [List.getD_eq_getElem?_getD]
          exact hmj
        obtain ⟨g1, g2⟩ := e3 j hmj'
        obtain ⟨y, y1, y2, y3, y4⟩ := ht.done j d hj g1
        obtain ⟨h4, -⟩ := f2' d hdc
        refine ⟨y, y1, fun k u hk hu => ?_, y3, by simp only; rw [h4]; exact y4⟩
        by_cases huc : u = c
        · subst huc
          have hki : k = i := index_inj hn hk hg
          subst hki
          have hsmall : |st'.sat.getD u 0 - t.st.sat.getD u 0| ≤ sweepTol := by
            by_contra hbig
            exact g2 (not_le.1 hbig) d hu hj
          have hold := y2 k u hk hu
          rw [← drift_same]
          have : y u - st'.sat.getD u 0 = (y u - t.st.sat.getD u 0) - (st'.sat.getD u 0 - t.st.sat.getD u 0) := by ring
          simp only
          rw [this]
          exact le_trans (abs_sub _ _) (add_le_add hold hsmall)
        · simp only
          rw [(f2' u huc).1]
          exact le_trans (y2 k u hk hu) (drift_step K i k)

/-- After solving the cells `C` starting from `s`. -/
structure SolvedAll (E : Env) (C : List Nat) (s st : State) (B : Rat) : Prop where
  fits : Fits E st
  outside : ∀ d, d ∉ C → SameAt s st d
  inside : ∀ d ∈ C, (0 ≤ st.sat.getD d 0 ∧ st.sat.getD d 0 ≤ 1) ∧ st.ff.getD d 0 = frac E d (st.sat.getD d 0)
  eqs : ∀ c ∈ C, ∃ y : Nat → Rat, (∀ u, u ∉ C → y u = st.sat.getD u 0) ∧ (∀ u ∈ C, E.g.FlowsTo E.flux u c → |y u - st.sat.getD u 0| ≤ B ∧ 0 ≤ y u ∧ y u ≤ 1) ∧
    Solved E c (s.sat.getD c 0) y (st.sat.getD c 0)

theorem sweeps_ok {E : Env} (h : EnvOk E) {C ia ja : List Nat} {pos : List Int} {s0 : List Rat} (hwf : WF E.g.nc ia ja) (hE : ∀ c d, Edge ia ja c d ↔ E.g.FlowsTo E.flux c d)
    (hlt : ∀ c ∈ C, c < E.g.nc) (hn : C.Nodup) (hp : PosOf E.g.nc C pos) {s : State} (hr : Ready E C s)
    (hs0 : ∀ (i : Nat) c, C[i]? = some c → s0[i]? = some (s.sat.getD c 0)) :
    ∀ (n K : Nat) (st : State) (marks : List Nat), SweepInv E C s K 0 st marks →
      sweeps E ia ja C pos s0 n st marks = .error .thrown ∨ ∃ st', sweeps E ia ja C pos s0 n st marks = .ok st' ∧ SolvedAll E C s st' ((K + n : Nat) * sweepTol) := by
  intro n
  induction n with
  | zero => exact fun _ _ _ _ => .inl rfl
  | succ n ih =>
    intro K st marks hinv
    obtain ⟨t, e, h1, h2⟩ := loop_inv (n := C.length) (f := updateCell E ia ja C pos s0) (s := { st, marks, count := 0 })
      (fun i (t : Iter) => SweepInv E C s K i t.st t.marks ∧ (t.count = 0 → t.marks = marks ∧ ∀ j < i, marks.getD j 1 = 0))
      ⟨hinv, fun _ => ⟨rfl, by simp⟩⟩ (by
        rintro i t hi ⟨h1, h2⟩
        obtain ⟨t', e, h3, h4, h5⟩ := updateCell_ok h hwf hE hlt hn hp hr hs0 hi h1
        refine ⟨t', e, h3, fun h0 => ?_⟩
        obtain ⟨rfl, h6⟩ := h5 (by omega)
        obtain ⟨h7, h8⟩ := h2 h0
        refine ⟨h7, fun j hj => ?_⟩
        rcases Nat.lt_or_ge j i with hji | hji
        · exact h8 j hji
        · obtain rfl : j = i := by omega
          rw [← h7]
          exact h6)
    have hnext : SweepInv E C s (K + 1) 0 t.st t.marks := by
      refine ⟨h1.fits, h1.outside, h1.inside, h1.len, fun j c hj hm => ?_⟩
      obtain ⟨y, y1, y2, y3⟩ := h1.done j c hj hm
      refine ⟨y, y1, fun k u hk hu => le_trans (y2 k u hk hu) (le_of_eq ?_), y3⟩
      unfold drift
      rw [if_pos (List.getElem?_eq_some_iff.1 hk).1, if_neg (by omega)]
      push_cast
      ring
    unfold sweeps
    rw [e, bind_ok]
    by_cases hc : 0 < t.count
    · rw [if_pos hc]
      rcases ih (K + 1) t.st t.marks hnext with hthr | ⟨st', e', hsol⟩
      · exact .inl hthr
      · refine .inr ⟨st', e', ?_⟩
        rw [show K + (n + 1) = K + 1 + n by omega]
        exact hsol
    · rw [if_neg hc]
      obtain ⟨hm, hall⟩ := h2 (by omega)
      refine .inr ⟨t.st, rfl, hnext.fits, hnext.outside, hnext.inside, fun c hcm => ?_⟩
      obtain ⟨j, hj⟩ := List.mem_iff_getElem?.1 hcm
      obtain ⟨y, y1, y2, y3, y4⟩ := hnext.done j c hj (by rw [hm]; exact hall j (List.getElem?_eq_some_iff.1 hj).1)
      refine ⟨y, fun u hu => by rw [y1 u hu, (hnext.outside u hu).1], fun u hu hfl => ⟨?_, y3 u hu⟩, y4⟩
      obtain ⟨k, hk⟩ := List.mem_iff_getElem?.1 hu
      refine le_trans (y2 k u hk hfl) ?_
      unfold drift
      rw [if_neg (by omega)]
      refine mul_le_mul_of_nonneg_right ?_ sweepTol_pos.le
      push_cast
      have : (0 : Rat) ≤ n := by positivity
      linarith

theorem solveMultiCell_ok {E : Env} (h : EnvOk E) {C ia ja : List Nat} (hwf : WF E.g.nc ia ja) (hE : ∀ c d, Edge ia ja c d ↔ E.g.FlowsTo E.flux c d)
    (hlt : ∀ c ∈ C, c < E.g.nc) (hn : C.Nodup) {s : State} (hr : Ready E C s) :
    solveMultiCell E ia ja C s = .error .thrown ∨ ∃ st', solveMultiCell E ia ja C s = .ok st' ∧ SolvedAll E C s st' (300 * sweepTol) := by
  obtain ⟨pos, e1, hp⟩ := positions_ok hlt
  obtain ⟨s0, e2, hs0⟩ := initSats_ok hlt hr.fits
  obtain ⟨s1, e3, f1, f2, f4, f5⟩ := initFlows_ok hlt hr.fits
  unfold solveMultiCell
  rw [e1, bind_ok, e2, bind_ok, e3, bind_ok]
  have := sweeps_ok h hwf hE hlt hn hp hr hs0 300 0 s1 (List.replicate C.length 1)
    ⟨f1, fun d hd => ⟨by rw [f2], f4 d hd⟩, fun d hd => ⟨by rw [f2]; exact hr.start d hd, by rw [f5 d hd, f2]⟩, by simp, fun j c hj hm => by
      have hj' := (List.getElem?_eq_some_iff.1 hj).1
      simp [List.getD_eq_getElem?_getD, hj'] at hm⟩
  simpa using this

/-- One call solves its cells. -/
theorem solveCall_ok {E : Env} (h : EnvOk E) {ia ja : List Nat} (hwf : WF E.g.nc ia ja) (hE : ∀ c d, Edge ia ja c d ↔ E.g.FlowsTo E.flux c d) (call : Reorder.Call)
    (hlt : ∀ c ∈ Reorder.Props.cells call, c < E.g.nc) (hn : (Reorder.Props.cells call).Nodup) {s : State} (hr : Ready E (Reorder.Props.cells call) s) :
    ((∃ cs, call = .multi cs) ∧ solveCall E ia ja s call = .error .thrown) ∨
      ∃ st', solveCall E ia ja s call = .ok st' ∧ SolvedAll E (Reorder.Props.cells call) s st' (300 * sweepTol) := by
  cases call with
  | multi C =>
    rcases solveMultiCell_ok h hwf hE (C := C) hlt hn hr with h1 | h1
    · exact .inl ⟨⟨C, rfl⟩, h1⟩
    · exact .inr h1
  | single c =>
    have hcm : c ∈ Reorder.Props.cells (.single c) := by simp [Reorder.Props.cells]
    have hmem : ∀ d, d ∈ Reorder.Props.cells (.single c) ↔ d = c := by simp [Reorder.Props.cells]
    obtain ⟨st', e, f1, f2, f3, f4, f6⟩ := solveSingleCell_ok h (hlt c hcm) hr.fits
      (fun u hu => hr.up c hcm u (by rw [hmem]; exact flowsTo_ne h.valid hu) hu) (hr.start c hcm).1 (hr.start c hcm).2
    refine .inr ⟨st', e, f1, fun d hd => f2 d (fun hh => hd ((hmem d).2 hh)), fun d hd => ?_, fun d hd => ?_⟩
    · rw [(hmem d).1 hd]
      exact ⟨f3, f4⟩
    · rw [(hmem d).1 hd]
      refine ⟨fun u => if u = c then 0 else s.sat.getD u 0, fun u hu => ?_, fun u hu hfl => ?_, ?_⟩
      · have : u ≠ c := fun hh => hu ((hmem u).2 hh)
        simp only
        rw [if_neg this, (f2 u this).1]
      · exact absurd ((hmem u).1 hu) (flowsTo_ne h.valid hfl)
      · unfold Solved at f6 ⊢
        rwa [residual_congr h.lenFlux (z := fun u => s.sat.getD u 0) (fun u hu => if_neg (flowsTo_ne h.valid hu))]

end Opm.CompressibleReorder

namespace Opm.CompressibleReorder
open Opm Graph Relation Opm.Reorder.Props
open Opm.TwophaseReorder (State Iter positions initSats newMarks markDownwind sweepTol sweepTol_pos)

/-- The equation of a cell holds, with nearly the final saturations upstream. -/
def CellDone (E : Env) (init st : State) (d : Nat) : Prop :=
  ((0 ≤ st.sat.getD d 0 ∧ st.sat.getD d 0 ≤ 1) ∧ st.ff.getD d 0 = frac E d (st.sat.getD d 0)) ∧
    ∃ y : Nat → Rat, (∀ u, E.g.FlowsTo E.flux u d → (0 ≤ y u ∧ y u ≤ 1) ∧ |y u - st.sat.getD u 0| ≤ 300 * sweepTol ∧
      (¬ReflTransGen (E.g.FlowsTo E.flux) d u → y u = st.sat.getD u 0)) ∧ Solved E d (init.sat.getD d 0) y (st.sat.getD d 0)

theorem calls_ok {E : Env} (h : EnvOk E) {ia ja : List Nat} (hwf : WF E.g.nc ia ja) (hE : ∀ c d, Edge ia ja c d ↔ E.g.FlowsTo E.flux c d) {calls : List Reorder.Call}
    (hp : (calls.flatMap cells).Perm (List.range E.g.nc))
    (ho : ∀ (i : Nat) c, calls[i]? = some c → ∀ d ∈ cells c, ∀ u, E.g.FlowsTo E.flux u d → ∃ (j : Nat) (c' : Reorder.Call), j ≤ i ∧ calls[j]? = some c' ∧ u ∈ cells c')
    (hscc : ∀ c ∈ calls, ∀ u ∈ cells c, ∀ v, v ∈ cells c ↔ ReflTransGen (E.g.FlowsTo E.flux) u v ∧ ReflTransGen (E.g.FlowsTo E.flux) v u)
    {init : State} (hfit : Fits E init) (hrange : ∀ c < E.g.nc, 0 ≤ init.sat.getD c 0 ∧ init.sat.getD c 0 ≤ 1) :
    ((∃ cs, Reorder.Call.multi cs ∈ calls) ∧ calls.foldlM (solveCall E ia ja) init = .error .thrown) ∨
      ∃ st, calls.foldlM (solveCall E ia ja) init = .ok st ∧ Fits E st ∧ ∀ d < E.g.nc, CellDone E init st d := by
  have hnd : (calls.flatMap cells).Nodup := hp.nodup_iff.2 List.nodup_range
  have hall : ∀ c ∈ calls, ∀ d ∈ cells c, d < E.g.nc := fun c hc d hd => List.mem_range.1 (hp.mem_iff.1 (List.mem_flatMap.2 ⟨c, hc, hd⟩))
  suffices hmain : ∀ (rest pre : List Reorder.Call) (st : State), calls = pre ++ rest → Fits E st → (∀ d, d ∉ pre.flatMap cells → SameAt init st d) →
      (∀ d ∈ pre.flatMap cells, CellDone E init st d) →
      ((∃ cs, Reorder.Call.multi cs ∈ calls) ∧ rest.foldlM (solveCall E ia ja) st = .error .thrown) ∨
        ∃ st', rest.foldlM (solveCall E ia ja) st = .ok st' ∧ Fits E st' ∧ ∀ d ∈ calls.flatMap cells, CellDone E init st' d by
    rcases hmain calls [] init rfl hfit (fun d _ => ⟨rfl, rfl⟩) (by simp) with h1 | ⟨st, e, h1, h2⟩
    · exact .inl h1
    · exact .inr ⟨st, e, h1, fun d hd => h2 d (hp.mem_iff.2 (List.mem_range.2 hd))⟩
  intro rest
  induction rest with
  | nil =>
    intro pre st hc hf _ hd
    rw [List.append_nil] at hc
    subst hc
    exact .inr ⟨st, rfl, hf, hd⟩
  | cons c rest ih =>
    intro pre st hc hf hsame hdone
    have hget : calls[pre.length]? = some c := by rw [hc]; simp
    have hcm : c ∈ calls := List.mem_of_getElem? hget
    have hsplit : calls.flatMap cells = pre.flatMap cells ++ (cells c ++ rest.flatMap cells) := by rw [hc]; simp
    rw [hsplit, List.nodup_append] at hnd
    obtain ⟨-, hnd2, hdis⟩ := hnd
    rw [List.nodup_append] at hnd2
    have hpre_c : ∀ d ∈ pre.flatMap cells, d ∉ cells c := fun d h1 h2 => hdis d h1 d (List.mem_append_left _ h2) rfl
    have hclosed : ∀ d ∈ pre.flatMap cells, ∀ u, E.g.FlowsTo E.flux u d → u ∈ pre.flatMap cells := by
      intro d hd u hu
      obtain ⟨c0, hc0, hdc⟩ := List.mem_flatMap.1 hd
      obtain ⟨i, hi⟩ := List.mem_iff_getElem?.1 hc0
      have hil := (List.getElem?_eq_some_iff.1 hi).1
      obtain ⟨j, c', hj, hjc, hu'⟩ := ho i c0 (by rw [hc, List.getElem?_append_left hil]; exact hi) d hdc u hu
      rw [hc, List.getElem?_append_left (by omega)] at hjc
      exact List.mem_flatMap.2 ⟨c', List.mem_of_getElem? hjc, hu'⟩
    have hup : ∀ d ∈ cells c, ∀ u, u ∉ cells c → E.g.FlowsTo E.flux u d → u ∈ pre.flatMap cells := by
      intro d hd u hnot hu
      obtain ⟨j, c', hj, hjc, hu'⟩ := ho pre.length c hget d hd u hu
      rcases Nat.lt_or_ge j pre.length with hlt | hge
      · rw [hc, List.getElem?_append_left hlt] at hjc
        exact List.mem_flatMap.2 ⟨c', List.mem_of_getElem? hjc, hu'⟩
      · obtain rfl : j = pre.length := by omega
        rw [hget] at hjc
        cases hjc
        exact absurd hu' hnot
    have hready : Ready E (cells c) st := by
      refine ⟨hf, fun d hd u hnot hu => (hdone u (hup d hd u hnot hu)).1, fun d hd => ?_⟩
      rw [(hsame d (fun h' => hpre_c d h' hd)).1]
      exact hrange d (hall c hcm d hd)
    rw [List.foldlM_cons]
    rcases solveCall_ok h hwf hE c (hall c hcm) hnd2.1 hready with ⟨⟨cs, rfl⟩, hthr⟩ | ⟨st', e, hs⟩
    · left
      rw [hthr]
      exact ⟨⟨cs, hcm⟩, rfl⟩
    · rw [e, bind_ok]
      refine ih (pre ++ [c]) st' (by rw [hc]; simp) hs.fits (fun d hd => ?_) (fun d hd => ?_)
      · rw [List.flatMap_append, List.mem_append, not_or] at hd
        simp only [List.flatMap_cons, List.flatMap_nil, List.append_nil] at hd
        obtain ⟨a1, a2⟩ := hsame d hd.1
        obtain ⟨b1, b2⟩ := hs.outside d hd.2
        exact ⟨b1.trans a1, b2.trans a2⟩
      · rw [List.flatMap_append, List.mem_append] at hd
        simp only [List.flatMap_cons, List.flatMap_nil, List.append_nil] at hd
        rcases hd with hd | hd
        · obtain ⟨k1, y, k2, k3⟩ := hdone d hd
          obtain ⟨b1, b2⟩ := hs.outside d (hpre_c d hd)
          refine ⟨by rw [b1, b2]; exact k1, y, fun u hu => ?_, by rw [b1]; exact k3⟩
          rw [(hs.outside u (hpre_c u (hclosed d hd u hu))).1]
          exact k2 u hu
        · obtain ⟨y, y1, y2, y3⟩ := hs.eqs d hd
          refine ⟨hs.inside d hd, y, fun u hu => ?_, ?_⟩
          · by_cases huc : u ∈ cells c
            · obtain ⟨z1, z2⟩ := y2 u huc hu
              exact ⟨z2, z1, fun hno => absurd ((hscc c hcm d hd u).1 huc).1 hno⟩
            · have e1 := y1 u huc
              have e2 := hready.up d hd u huc hu
              refine ⟨?_, ?_, fun _ => e1⟩
              · rw [e1, (hs.outside u huc).1]
                exact e2.1
              · rw [e1, sub_self, abs_zero]
                exact mul_nonneg (by norm_num) sweepTol_pos.le
          · rw [← (hsame d (fun h' => hpre_c d h' hd)).1]
            exact y3


end Opm.CompressibleReorder
