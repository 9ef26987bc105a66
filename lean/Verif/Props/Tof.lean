import Verif.Proofs.Tof
import Verif.Proofs.GridValid
import Mathlib.Algebra.BigOperators.Group.Finset.Basic
/-!
# C80, C81: time of flight and tracers
-/

namespace Opm.Tof
open Opm

variable {g : GridTopo} {flux pv src : List Rat}

theorem transport_ok (hd : TofData g flux pv src) {fuel : Nat} (hfuel : 2 * g.nc + 2 * g.nf + 2 ≤ fuel) {nt : Nat} {s : List Rat × List Rat} (h1 : s.1.length = g.nc)
    (h2 : s.2.length = g.nc * nt) :
    ∃ s', transport fuel g flux pv src nt s = .ok s' ∧ (s'.1.length = g.nc ∧ s'.2.length = g.nc * nt) ∧
      (∀ d < g.nc, cellValue nt s' d = newValue g flux pv src d (cellValue nt s d) (cellValue nt s')) ∧
      ∃ rank : Nat → Nat, ∀ u d, d < g.nc → g.FlowsTo flux u d → rank u < rank d := by
  obtain ⟨L, e, hp, ho⟩ := Reorder.single_calls hd.valid hd.lenFlux hd.cells hd.acyclic [] [] hfuel
  have hmem : ∀ d, d ∈ L ↔ d < g.nc := fun d => by rw [hp.mem_iff, List.mem_range]
  have hn : L.Nodup := hp.nodup_iff.2 List.nodup_range
  obtain ⟨s', es, hi, hv, -⟩ := Reorder.sweep (n := g.nc) (cellValue nt) (fun s c => solveSingleCell g flux pv src nt c s) (newValue g flux pv src)
    (fun s => s.1.length = g.nc ∧ s.2.length = g.nc * nt) (g.FlowsTo flux)
    (fun d s hdn hs => solveSingleCell_ok hd.valid hd.lenFlux hd.lenPv hd.lenSrc hdn (hd.moving d hdn).ne' hs.1 hs.2)
    (newValue_dep hd.lenFlux) hn (fun d hd => (hmem d).1 hd) ho ⟨h1, h2⟩
  obtain ⟨rank, hr⟩ := Reorder.exists_rank hn ho
  refine ⟨s', ?_, hi, fun d hdn => hv d ((hmem d).2 hdn), rank, fun u d hdn hu => hr u d ((hmem d).2 hdn) hu⟩
  unfold transport
  rw [e, bind_ok, List.foldlM_map]
  exact es

theorem foldl_max (l : List Rat) : ∀ q : Rat, (l.foldl max q = q ∨ l.foldl max q ∈ l) ∧ q ≤ l.foldl max q ∧ ∀ x ∈ l, x ≤ l.foldl max q := by
  induction l with
  | nil => intro q; simp
  | cons a l ih =>
    intro q
    obtain ⟨h1, h2, h3⟩ := ih (max q a)
    simp only [List.foldl_cons]
    refine ⟨?_, le_trans (le_max_left _ _) h2, ?_⟩
    · rcases h1 with h | h
      · rw [h]
        rcases max_choice q a with h' | h' <;> rw [h'] <;> simp
      · exact .inr (by simp [h])
    · intro x hx
      rcases List.mem_cons.1 hx with rfl | hx
      · exact le_trans (le_max_right _ _) h2
      · exact h3 x hx

/-- The check of the sources. -/
theorem checkSources_iff {nc : Nat} (hnc : 0 < nc) (hl : nc ≤ src.length) :
    (SourcesBalanced nc src → checkSources nc src = .ok ()) ∧ (¬SourcesBalanced nc src → checkSources nc src = .error .thrown) := by
  have hne : src.take nc ≠ [] := by
    intro h
    have := congrArg List.length h
    rw [List.length_take, List.length_nil] at this
    omega
  unfold SourcesBalanced checkSources
  cases h : src.take nc with
  | nil => exact absurd h hne
  | cons q qs =>
    obtain ⟨m1, m2, m3⟩ := foldl_max qs q
    simp only
    have hm : qs.foldl max q ∈ q :: qs := by
      rcases m1 with h | h
      · rw [h]; simp
      · simp [h]
    have hle : ∀ x ∈ q :: qs, x ≤ qs.foldl max q := by
      intro x hx
      rcases List.mem_cons.1 hx with rfl | hx
      · exact m2
      · exact m3 x hx
    constructor
    · rintro ⟨m, hmm, hmax, hs1, hs2⟩
      have : m = qs.foldl max q := le_antisymm (hle m hmm) (hmax _ hm)
      subst this
      rw [if_neg]
      rw [gt_iff_lt, not_lt, max_le_iff]
      exact ⟨by linarith, by linarith⟩
    · intro hno
      rw [if_pos]
      by_contra hcon
      rw [gt_iff_lt, not_lt, max_le_iff] at hcon
      exact hno ⟨_, hm, hle, by linarith [hcon.1], by linarith [hcon.2]⟩

/-- Induction along the flow. -/
theorem flow_induction {rank : Nat → Nat} (hr : ∀ u d, d < g.nc → g.FlowsTo flux u d → rank u < rank d) {P : Nat → Prop}
    (h : ∀ c < g.nc, (∀ u < g.nc, g.FlowsTo flux u c → P u) → P c) : ∀ c < g.nc, P c := by
  suffices hk : ∀ k c, rank c < k → c < g.nc → P c from fun c hc => hk (rank c + 1) c (by omega) hc
  intro k
  induction k with
  | zero => intro c h; omega
  | succ k ih =>
    intro c hck hc
    exact h c hc (fun u hu hf => ih u (by have := hr u c hc hf; omega) hu)

/-- **C80.**  Without circulation, `solveTof` returns the solution of the upwind equations; it is the only one, and positive if the pore volumes are. -/
theorem time_of_flight (hd : TofData g flux pv src) (hb : SourcesBalanced g.nc src) {fuel : Nat} (hfuel : 2 * g.nc + 2 * g.nf + 2 ≤ fuel) :
    ∃ τ, solveTof fuel g flux pv src = .ok τ ∧ τ.length = g.nc ∧ TofEquations g flux pv src (fun c => τ.getD c 0) ∧
      (∀ σ, TofEquations g flux pv src σ → ∀ c < g.nc, σ c = τ.getD c 0) ∧
      ((∀ c < g.nc, 0 < pv.getD c 0) → ∀ c < g.nc, 0 < τ.getD c 0) := by
  obtain ⟨s, e, ⟨h1, -⟩, h2, rank, hr⟩ := transport_ok hd hfuel (nt := 0) (s := (List.replicate g.nc 0, [])) (by simp) (by simp)
  have heq : TofEquations g flux pv src (fun c => s.1.getD c 0) := by
    intro c hc
    have := congrArg Prod.fst (h2 c hc)
    simp only [cellValue, newValue] at this
    simp only
    conv => lhs; rw [this]
    exact div_mul_cancel₀ _ (hd.moving c hc).ne'
  refine ⟨s.1, ?_, h1, heq, ?_, ?_⟩
  · unfold solveTof
    rw [(checkSources_iff hd.cells hd.lenSrc).1 hb, bind_ok, e, bind_ok]
  · intro σ hσ
    refine flow_induction hr fun c hc ih => ?_
    have hm := hd.moving c hc
    have e1 := hσ c hc
    have e2 := heq c hc
    have : ∑ u ∈ Finset.range g.nc, g.flowRate flux u c * σ u = ∑ u ∈ Finset.range g.nc, g.flowRate flux u c * s.1.getD u 0 := by
      refine Finset.sum_congr rfl fun u hu => ?_
      by_cases hf : g.FlowsTo flux u c
      · rw [ih u (Finset.mem_range.1 hu) hf]
      · rw [flowRate_zero hd.lenFlux hf, zero_mul, zero_mul]
    rw [this] at e1
    exact mul_right_cancel₀ hm.ne' (e1.trans e2.symm)
  · intro hpv
    refine flow_induction hr fun c hc ih => ?_
    have hm := hd.moving c hc
    have e2 := heq c hc
    simp only at e2
    have hs : 0 ≤ ∑ u ∈ Finset.range g.nc, g.flowRate flux u c * s.1.getD u 0 := by
      refine Finset.sum_nonneg fun u hu => ?_
      by_cases hf : g.FlowsTo flux u c
      · exact mul_nonneg (flowRate_nonneg _ _) (ih u (Finset.mem_range.1 hu) hf).le
      · rw [flowRate_zero hd.lenFlux hf, zero_mul]
    have := hpv c hc
    by_contra hcon
    have := mul_nonpos_of_nonpos_of_nonneg (not_lt.1 hcon) hm.le
    linarith

/-- **C80.**  Sources that do not nearly add up to zero are rejected (in debug builds). -/
theorem unbalanced_sources_rejected (hnc : 0 < g.nc) (hl : g.nc ≤ src.length) (hb : ¬SourcesBalanced g.nc src) (fuel : Nat) :
    solveTof fuel g flux pv src = .error .thrown ∧ solveTofTracer fuel g flux pv src = .error .thrown := by
  unfold solveTof solveTofTracer
  rw [(checkSources_iff hnc hl).2 hb]
  exact ⟨rfl, rfl⟩

/-! ### Tracers -/

theorem tracerHeads_ok {nc : Nat} (hl : nc ≤ src.length) : tracerHeads nc src = .ok (sourceCells nc src) := by
  obtain ⟨t, e, h⟩ := loop_inv (n := nc) (s := ([] : List Nat)) (f := fun c heads => do
    let q ← rd src c
    if 0 < q then .ok (heads ++ [c]) else .ok heads) (fun k t => t = sourceCells k src) rfl
    (by
      rintro i t hi rfl
      rw [rd_of_getElem? (getElem?_getD (by omega : i < src.length)), bind_ok]
      unfold sourceCells
      rw [List.range_succ, List.filter_append]
      by_cases hq : 0 < src.getD i 0
      · rw [if_pos hq]
        exact ⟨_, rfl, by simp only [List.filter_cons, List.filter_nil, hq, decide_true, if_true]⟩
      · rw [if_neg hq]
        exact ⟨_, rfl, by simp only [List.filter_cons, List.filter_nil, hq, decide_false, Bool.false_eq_true, if_false, List.append_nil]⟩)
  rw [← h]
  exact e

theorem initTracers_ok {nc : Nat} {heads : List Nat} (hh : ∀ c ∈ heads, c < nc) :
    ∃ t, initTracers nc heads = .ok t ∧ t.length = nc * heads.length ∧
      ∀ c tr, entry heads.length t c tr = if heads[tr]? = some c then 1 else 0 := by
  obtain ⟨t, e, h1, h2⟩ := loop_inv (n := heads.length) (s := (List.replicate (nc * heads.length) 0 : List Rat)) (f := fun tr tracer => do
    let c ← rd heads tr
    wr tracer (c * heads.length + tr) 1) (fun k t => t.length = nc * heads.length ∧ ∀ c tr, entry heads.length t c tr = if tr < k ∧ heads[tr]? = some c then 1 else 0)
    ⟨by simp, fun c tr => by
      have : ∀ i, (List.replicate (nc * heads.length) (0 : Rat)).getD i 0 = 0 := by
        intro i
        rw [List.getD_eq_getElem?_getD, List.getElem?_replicate]
        split <;> rfl
      simp only [entry, this]
      simp⟩
    (by
      rintro k t hk ⟨h1, h2⟩
      have hlt := idx_lt (hh heads[k] (List.getElem_mem _)) hk
      rw [rd_of_getElem? (List.getElem?_eq_getElem hk), bind_ok, Nat.mul_comm heads[k], wr_ok (by omega)]
      refine ⟨_, rfl, by simp [h1], fun c tr => ?_⟩
      by_cases ht : tr < heads.length
      · have h3 := h2 c tr
        simp only [entry, ht, if_true] at h3 ⊢
        by_cases hc : heads[k] = c ∧ k = tr
        · obtain ⟨rfl, rfl⟩ := hc
          rw [if_pos ⟨by omega, List.getElem?_eq_getElem hk⟩]
          have : heads.length * heads[k] + k < t.length := by omega
          simp [List.getD_eq_getElem?_getD, this]
        · have hne : heads.length * heads[k] + k ≠ heads.length * c + tr := by rw [Ne, idx_inj hk ht]; exact hc
          have : (t.set (heads.length * heads[k] + k) 1).getD (heads.length * c + tr) 0 = t.getD (heads.length * c + tr) 0 := by
            simp [List.getD_eq_getElem?_getD, hne]
          rw [this, h3]
          by_cases h5 : tr < k ∧ heads[tr]? = some c
          · rw [if_pos h5, if_pos ⟨by omega, h5.2⟩]
          · rw [if_neg h5, if_neg]
            rintro ⟨h6, h7⟩
            rcases Nat.lt_or_ge tr k with h8 | h8
            · exact h5 ⟨h8, h7⟩
            · obtain rfl : tr = k := by omega
              rw [List.getElem?_eq_getElem hk] at h7
              exact hc ⟨Option.some.inj h7, rfl⟩
      · have : heads[tr]? = none := by simp; omega
        rw [this]
        simp [entry, ht])
  refine ⟨t, e, h1, fun c tr => ?_⟩
  rw [h2]
  by_cases ht : tr < heads.length
  · simp [ht]
  · have : heads[tr]? = none := by simp; omega
    simp [this]

theorem sourceCells_facts (nc : Nat) (src : List Rat) : (sourceCells nc src).Nodup ∧ (∀ c ∈ sourceCells nc src, c < nc) ∧ ∀ c < nc, c ∈ sourceCells nc src ↔ 0 < src.getD c 0 := by
  unfold sourceCells
  refine ⟨List.nodup_range.filter _, fun c hc => ?_, fun c hc => ?_⟩
  · exact List.mem_range.1 (List.mem_filter.1 hc).1
  · rw [List.mem_filter, List.mem_range]
    simp [hc]

/-- Inflow equals throughput in cells without a source. -/
theorem inflow_eq (hd : TofData g flux pv src) (hc : VolumeConserved g flux src) (hb : NoBoundaryInflow g flux) {c : Nat} (hcn : c < g.nc) (hs : src.getD c 0 ≤ 0) :
    ∑ u ∈ Finset.range g.nc, g.flowRate flux u c = g.throughput flux src c := by
  have h1 : ∑ u ∈ Finset.range g.nc, g.flowRate flux u c =
      -∑ i ∈ Finset.Ico (g.cellFacepos.getD c 0) (g.cellFacepos.getD (c + 1) 0), con g flux c (g.cellFaces.getD i 0) (fun _ => 1) := by
    rw [sum_con hd.valid hcn]
    simp
  have h2 : ∀ i ∈ Finset.Ico (g.cellFacepos.getD c 0) (g.cellFacepos.getD (c + 1) 0),
      con g flux c (g.cellFaces.getD i 0) (fun _ => 1) = g.faceOut flux c (g.cellFaces.getD i 0) - max (g.faceOut flux c (g.cellFaces.getD i 0)) 0 := by
    intro i hi
    rw [Finset.mem_Ico] at hi
    obtain ⟨f, hf, hlt⟩ := hd.valid.face_at hcn hi.2
    have ef : g.cellFaces.getD i 0 = f := by simp [List.getD_eq_getElem?_getD, hf]
    rw [ef]
    have hh := GridTopo.hasFace_of hd.valid hcn hi.1 hi.2 hf
    obtain ⟨other, e, hother⟩ := cellFlux_ok hd.valid hd.lenFlux hlt hh
    have hmm : ∀ q : Rat, min q 0 = q - max q 0 := by
      intro q
      rcases le_total q 0 with h | h
      · rw [min_eq_left h, max_eq_right h, sub_zero]
      · rw [min_eq_right h, max_eq_left h, sub_self]
    rcases hother with ⟨rfl, hz⟩ | ⟨o, rfl, ho, hoc, hcon⟩
    · rw [hz]
      have hnn : 0 ≤ g.faceOut flux c f := by
        obtain ⟨a, b, hsd⟩ := hd.valid.sides hlt
        obtain ⟨hba, hbb⟩ := hb f a b hsd
        unfold cellFlux at e
        rw [rd_of_getElem? hsd.1, bind_ok, rd_of_getElem? (getElem?_getD (by rw [hd.lenFlux]; exact hlt)), bind_ok] at e
        by_cases hac : (c : Int) = a
        · rw [if_pos hac, rd_of_getElem? hsd.2, bind_ok] at e
          have e' := Except.ok.inj e
          have e1 : flux.getD f 0 = g.faceOut flux c f := congrArg Prod.fst e'
          rw [← e1]
          exact hbb (congrArg Prod.snd e')
        · rw [if_neg hac] at e
          have e' := Except.ok.inj e
          have e1 : -flux.getD f 0 = g.faceOut flux c f := congrArg Prod.fst e'
          have := hba (congrArg Prod.snd e')
          linarith
      rw [max_eq_left hnn, sub_self]
    · rw [hcon, mul_one, hmm]
  rw [h1, Finset.sum_congr rfl h2, Finset.sum_sub_distrib, sum_out hd.valid hcn]
  have h3 : ∑ i ∈ Finset.Ico (g.cellFacepos.getD c 0) (g.cellFacepos.getD (c + 1) 0), g.faceOut flux c (g.cellFaces.getD i 0) = src.getD c 0 := by
    rw [← hc c hcn, GridTopo.sum_row hd.valid hcn (fun f => g.faceOut flux c f), Finset.sum_filter]
    unfold GridTopo.netOutflow
    refine Finset.sum_congr rfl fun f _ => ?_
    unfold GridTopo.faceOut
    by_cases h : g.faceCells[2 * f]? = some (c : Int) ∨ g.faceCells[2 * f + 1]? = some (c : Int)
    · rw [if_pos h]
    · rw [if_neg h, if_neg (fun h' => h (.inl h')), if_neg (fun h' => h (.inr h')), sub_zero]
  rw [h3]
  unfold GridTopo.throughput
  rw [max_eq_left (by linarith)]
  ring

/-- **C81.**  `solveTofTracer` returns one tracer for each cell with a source.  If no other cell feeds a source cell, tracer `k` is one in its own source cell, zero
in the others, and elsewhere solves the upwind equation; the times of flight are those of `solveTof`.  If moreover volume is conserved and nothing enters through the boundary, tracers are
fractions that add up to one in each cell.  Missing for the full property: source cells fed by other cells, see `fed_source_spoils_tracers`. -/
theorem tracers_partition_partial (hd : TofData g flux pv src) (hb : SourcesBalanced g.nc src) (hne : sourceCells g.nc src ≠ []) (hup : SourcesUpstream g flux src) {fuel : Nat}
    (hfuel : 2 * g.nc + 2 * g.nf + 2 ≤ fuel) :
    ∃ τ x, solveTofTracer fuel g flux pv src = .ok (τ, x) ∧ solveTof fuel g flux pv src = .ok τ ∧ x.length = g.nc * (sourceCells g.nc src).length ∧
      (∀ k < (sourceCells g.nc src).length, ∀ c < g.nc,
        (0 < src.getD c 0 → x[(sourceCells g.nc src).length * c + k]? = some (if (sourceCells g.nc src)[k]? = some c then 1 else 0)) ∧
        (src.getD c 0 ≤ 0 → TracerEquation g flux src (fun u => x.getD ((sourceCells g.nc src).length * u + k) 0) c)) ∧
      (VolumeConserved g flux src → NoBoundaryInflow g flux → ∀ c < g.nc,
        (∀ k < (sourceCells g.nc src).length, 0 ≤ x.getD ((sourceCells g.nc src).length * c + k) 0) ∧
        ∑ k ∈ Finset.range (sourceCells g.nc src).length, x.getD ((sourceCells g.nc src).length * c + k) 0 = 1) := by
  obtain ⟨f1, f2, f3⟩ := sourceCells_facts g.nc src
  obtain ⟨t0, e0, l0, v0⟩ := initTracers_ok (nc := g.nc) f2
  generalize hH : sourceCells g.nc src = H at *
  obtain ⟨s, e, ⟨h1, h1'⟩, h2, rank, hr⟩ := transport_ok hd hfuel (nt := H.length) (s := (List.replicate g.nc 0, t0)) (by simp) l0
  have hlen : 0 < H.length := List.length_pos_iff.2 hne
  have ht0 : t0 ≠ [] := by
    rintro rfl
    have := Nat.mul_pos hd.cells hlen
    rw [List.length_nil] at l0
    omega
  have hrun : solveTofTracer fuel g flux pv src = .ok s := by
    unfold solveTofTracer
    rw [(checkSources_iff hd.cells hd.lenSrc).1 hb, bind_ok, tracerHeads_ok hd.lenSrc, bind_ok, hH, e0, bind_ok, if_neg ht0, e]
  have hent : ∀ c tr, tr < H.length → entry H.length s.2 c tr = s.2.getD (H.length * c + tr) 0 := fun c tr h => by simp [entry, h]
  have hval : ∀ c < g.nc, ∀ k, entry H.length s.2 c k = (newValue g flux pv src c (cellValue H.length (List.replicate g.nc 0, t0) c) (cellValue H.length s)).2 k := by
    intro c hc k
    exact congrFun (congrArg Prod.snd (h2 c hc)) k
  have hsrc : ∀ c < g.nc, 0 < src.getD c 0 → ∀ k, entry H.length s.2 c k = if H[k]? = some c then 1 else 0 := by
    intro c hc hs k
    rw [hval c hc]
    simp only [newValue, if_neg (not_le.2 hs), cellValue, v0]
    rw [Finset.sum_eq_zero, sub_zero]
    intro u _
    rw [flowRate_zero hd.lenFlux (fun hf => absurd (hup u c hf) (not_le.2 hs)), zero_mul]
  have heq : ∀ c < g.nc, src.getD c 0 ≤ 0 → ∀ k, entry H.length s.2 c k * g.throughput flux src c = ∑ u ∈ Finset.range g.nc, g.flowRate flux u c * entry H.length s.2 u k := by
    intro c hc hs k
    conv => lhs; rw [hval c hc]
    simp only [newValue, if_pos hs, cellValue, v0]
    have hno : H[k]? ≠ some c := by
      intro h
      exact absurd ((f3 c hc).1 (List.mem_of_getElem? h)) (not_lt.2 hs)
    have hm := (hd.moving c hc).ne'
    rw [if_neg hno]
    field_simp
    ring
  obtain ⟨τ, eτ, -, -, huniq, -⟩ := time_of_flight hd hb hfuel
  refine ⟨s.1, s.2, hrun, ?_, h1', ?_, ?_⟩
  · obtain ⟨s0, e0', ⟨k1, -⟩, k2, -⟩ := transport_ok hd hfuel (nt := 0) (s := (List.replicate g.nc 0, [])) (by simp) (by simp)
    have hτ0 : solveTof fuel g flux pv src = .ok s0.1 := by
      unfold solveTof
      rw [(checkSources_iff hd.cells hd.lenSrc).1 hb, bind_ok, e0', bind_ok]
    rw [hτ0] at eτ
    obtain rfl := Except.ok.inj eτ
    rw [hτ0]
    congr 1
    refine List.ext_getElem (by omega) fun i hi1 hi2 => ?_
    have := huniq (fun c => s.1.getD c 0) (fun c hc => by
      have := congrArg Prod.fst (h2 c hc)
      simp only [cellValue, newValue] at this
      simp only
      conv => lhs; rw [this]
      exact div_mul_cancel₀ _ (hd.moving c hc).ne') i (by omega)
    simpa [List.getD_eq_getElem?_getD, hi1, hi2] using this.symm
  · intro k hk c hc
    have hidx := idx_lt hc hk
    refine ⟨fun hs => ?_, fun hs => ?_⟩
    · rw [getElem?_getD (by omega), ← hent c k hk, hsrc c hc hs]
    · have := heq c hc hs k
      unfold TracerEquation
      simp only [hent _ k hk] at this
      exact this
  · intro hcons hbnd
    suffices h : ∀ c < g.nc, (∀ k, 0 ≤ entry H.length s.2 c k) ∧ ∑ k ∈ Finset.range H.length, entry H.length s.2 c k = 1 by
      intro c hc
      refine ⟨fun k hk => by rw [← hent c k hk]; exact (h c hc).1 k, ?_⟩
      rw [← (h c hc).2]
      exact Finset.sum_congr rfl fun k hk => (hent c k (Finset.mem_range.1 hk)).symm
    refine flow_induction hr fun c hc ih => ?_
    by_cases hs : 0 < src.getD c 0
    · have hin := (f3 c hc).2 hs
      refine ⟨fun k => ?_, ?_⟩
      · rw [hsrc c hc hs]
        split <;> norm_num
      · obtain ⟨j, hj, hjc⟩ := List.getElem_of_mem hin
        rw [Finset.sum_eq_single j]
        · rw [hsrc c hc hs, if_pos (by rw [List.getElem?_eq_getElem hj, hjc])]
        · intro k hk hkj
          rw [hsrc c hc hs, if_neg]
          intro h
          obtain ⟨hk', hkc⟩ := List.getElem?_eq_some_iff.1 h
          exact hkj ((f1.getElem_inj_iff (hi := hk') (hj := hj)).1 (hkc.trans hjc.symm))
        · intro h
          exact absurd (Finset.mem_range.2 hj) h
    · have hs := not_lt.1 hs
      have hm := hd.moving c hc
      have hterm : ∀ k, ∀ u ∈ Finset.range g.nc, 0 ≤ g.flowRate flux u c * entry H.length s.2 u k := by
        intro k u hu
        by_cases hf : g.FlowsTo flux u c
        · exact mul_nonneg (flowRate_nonneg _ _) ((ih u (Finset.mem_range.1 hu) hf).1 k)
        · rw [flowRate_zero hd.lenFlux hf, zero_mul]
      refine ⟨fun k => ?_, ?_⟩
      · have h3 := heq c hc hs k
        have h4 := Finset.sum_nonneg (hterm k)
        by_contra hcon
        have := mul_neg_of_neg_of_pos (not_le.1 hcon) hm
        linarith
      · refine mul_right_cancel₀ hm.ne' ?_
        rw [one_mul, Finset.sum_mul, Finset.sum_congr rfl (fun k _ => heq c hc hs k), Finset.sum_comm, ← inflow_eq hd hcons hbnd hc hs]
        refine Finset.sum_congr rfl fun u hu => ?_
        rw [← Finset.mul_sum]
        by_cases hf : g.FlowsTo flux u c
        · rw [(ih u (Finset.mem_range.1 hu) hf).2, mul_one]
        · rw [flowRate_zero hd.lenFlux hf, zero_mul]

/-! ### Examples -/

/-- Three cells in a row. -/
private def row : GridTopo := { nc := 3, nf := 4, faceCells := [-1, 0, 0, 1, 1, 2, 2, -1], cellFacepos := [0, 2, 4, 6], cellFaces := [0, 1, 1, 2, 2, 3] }

private theorem row_valid : row.Valid := GridTopo.ValidB.valid (by decide +kernel)

private theorem row_acyclic : NoCirculation row [0, 2, 2, 0] := by
  have key : ∀ u d, row.FlowsTo [0, 2, 2, 0] u d → u < d := by
    rintro u d ⟨f, q, hq, h⟩
    match f, hq with
    | 0, hq => cases hq; rcases h with h | h <;> exact absurd h.1 (by decide +kernel)
    | 1, hq =>
      cases hq
      rcases h with ⟨-, h1, h2⟩ | ⟨h, -⟩
      · simp [row] at h1 h2; omega
      · exact absurd h (by decide +kernel)
    | 2, hq =>
      cases hq
      rcases h with ⟨-, h1, h2⟩ | ⟨h, -⟩
      · simp [row] at h1 h2; omega
      · exact absurd h (by decide +kernel)
    | 3, hq => cases hq; rcases h with h | h <;> exact absurd h.1 (by decide +kernel)
  have lt : ∀ u d, Relation.TransGen (row.FlowsTo [0, 2, 2, 0]) u d → u < d := by
    intro u d h
    induction h with
    | single h => exact key _ _ h
    | tail _ h ih => exact Nat.lt_trans ih (key _ _ h)
  exact fun c h => absurd (lt c c h) (by omega)

private theorem row_data : TofData row [0, 2, 2, 0] [1, 2, 3] [2, 0, -2] :=
  ⟨row_valid, by decide, by decide, by decide, by decide, row_acyclic, by decide +kernel⟩

private theorem row_balanced : SourcesBalanced row.nc [2, 0, -2] := ⟨2, by decide +kernel, by decide +kernel, by decide +kernel, by decide +kernel⟩

example : ∃ τ, solveTof 100 row [0, 2, 2, 0] [1, 2, 3] [2, 0, -2] = .ok τ ∧ TofEquations row [0, 2, 2, 0] [1, 2, 3] [2, 0, -2] (fun c => τ.getD c 0) := by
  obtain ⟨τ, e, -, h, -⟩ := time_of_flight row_data row_balanced (fuel := 100) (by decide)
  exact ⟨τ, e, h⟩

example : solveTof 100 row [0, 2, 2, 0] [1, 2, 3] [2, 0, -2] = .ok [1/2, 3/2, 3] := by decide +kernel

example : SourcesUpstream row [0, 2, 2, 0] [2, 0, -2] ∧ VolumeConserved row [0, 2, 2, 0] [2, 0, -2] ∧ NoBoundaryInflow row [0, 2, 2, 0] ∧ sourceCells row.nc [2, 0, -2] ≠ [] := by
  refine ⟨?_, by unfold VolumeConserved; decide +kernel, ?_, by decide +kernel⟩
  · rintro u d ⟨f, q, hq, h⟩
    match f, hq with
    | 0, hq => cases hq; rcases h with h | h <;> exact absurd h.1 (by decide +kernel)
    | 1, hq =>
      cases hq
      rcases h with ⟨-, h1, h2⟩ | ⟨h, -⟩
      · have : d = 1 := by simp [row] at h2; omega
        subst this
        decide +kernel
      · exact absurd h (by decide +kernel)
    | 2, hq =>
      cases hq
      rcases h with ⟨-, h1, h2⟩ | ⟨h, -⟩
      · have : d = 2 := by simp [row] at h2; omega
        subst this
        decide +kernel
      · exact absurd h (by decide +kernel)
    | 3, hq => cases hq; rcases h with h | h <;> exact absurd h.1 (by decide +kernel)
  · rintro f a b ⟨h1, h2⟩
    match f with
    | 0 => exact ⟨fun _ => by decide +kernel, fun _ => by decide +kernel⟩
    | 1 => exact ⟨fun h => by subst h; simp [row] at h1, fun _ => by decide +kernel⟩
    | 2 => exact ⟨fun h => by subst h; simp [row] at h1, fun _ => by decide +kernel⟩
    | 3 => exact ⟨fun _ => by decide +kernel, fun _ => by decide +kernel⟩
    | n + 4 => simp

example : solveTofTracer 100 row [0, 2, 2, 0] [1, 2, 3] [2, 0, -2] = .ok ([1/2, 3/2, 3], [1, 1, 1]) := by decide +kernel

/-! ### Where the properties fail -/

/-- A source cell fed by another cell: its tracers are spoiled, although the fluxes conserve volume.  The first tracer is `-1` in the second and third cell. -/
theorem fed_source_spoils_tracers : VolumeConserved row [0, 1, 2, 0] [1, 1, -2] ∧
    solveTofTracer 100 row [0, 1, 2, 0] [1, 1, 1] [1, 1, -2] = .ok ([1, 1, 3/2], [1, 0, -1, 1, -1, 1]) :=
  ⟨by unfold VolumeConserved; decide +kernel, by decide +kernel⟩

/-- Four cells in a ring. -/
private def ring : GridTopo := { nc := 4, nf := 4, faceCells := [0, 1, 1, 2, 2, 3, 3, 0], cellFacepos := [0, 2, 4, 6, 8], cellFaces := [0, 3, 0, 1, 1, 2, 2, 3] }

/-- With circulation the cells are visited once, and the result does not solve the equations. -/
theorem circulation_not_solved : ∃ τ, solveTof 100 ring [1, 1, 1, 1] [1, 1, 1, 1] [0, 0, 0, 0] = .ok τ ∧ ring.Valid ∧
    ¬TofEquations ring [1, 1, 1, 1] [1, 1, 1, 1] [0, 0, 0, 0] (fun c => τ.getD c 0) :=
  ⟨[4, 1, 2, 3], by decide +kernel, GridTopo.ValidB.valid (by decide +kernel), by unfold TofEquations; decide +kernel⟩

/-- A cell through which nothing flows has no finite time of flight. -/
theorem stagnant_cell : solveTof 100 row [0, 0, 2, 0] [1, 2, 3] [0, 2, -2] = .error .nonFinite := by decide +kernel

end Opm.Tof
