import Verif.Proofs.IfsForces
/-! # Fluxes from pressures -/

namespace Opm.IfsTpfa
open Opm Opm.SparseSys Graph

theorem _root_.Opm.RowPos.exists_row {n : Nat} {pos : List Nat} (h : RowPos n pos) {i : Nat} (hi : i < pos.getD n 0) :
    ∃ c, c < n ∧ pos.getD c 0 ≤ i ∧ i < pos.getD (c + 1) 0 := by
  have : ∀ k, k ≤ n → i < pos.getD k 0 → ∃ c, c < k ∧ pos.getD c 0 ≤ i ∧ i < pos.getD (c + 1) 0 := by
    intro k hk hi
    induction k with
    | zero => rw [h.get_zero] at hi; omega
    | succ k ih =>
      by_cases hlt : i < pos.getD k 0
      · obtain ⟨c, h1, h2⟩ := ih (by omega) hlt
        exact ⟨c, by omega, h2⟩
      · exact ⟨k, by omega, by omega, hi⟩
  exact this n (le_refl _) hi

theorem getD_set {l : List Rat} {k j : Nat} {v : Rat} (hk : k < l.length) : (l.set k v).getD j 0 = if j = k then v else l.getD j 0 := by
  rw [List.getD_eq_getElem?_getD, List.getElem?_set, List.getD_eq_getElem?_getD]
  by_cases h : k = j
  · subst h; simp [hk]
  · rw [if_neg h, if_neg (Ne.symm h)]

/-- A loop that writes entry `i` in pass `i`. -/
theorem loop_write {n : Nat} {f : Nat → List Rat → M (List Rat)} {s : List Rat} (v : Nat → Rat) (hn : n ≤ s.length)
    (hf : ∀ i t, i < n → t.length = s.length → f i t = wr t i (v i)) :
    ∃ t, loop n f s = .ok t ∧ t.length = s.length ∧ (∀ i, i < n → t.getD i 0 = v i) ∧ ∀ i, n ≤ i → t.getD i 0 = s.getD i 0 := by
  obtain ⟨t, e, h1, h2, h3⟩ := loop_inv (n := n) (f := f) (s := s)
    (P := fun k (t : List Rat) => t.length = s.length ∧ (∀ i, i < k → t.getD i 0 = v i) ∧ ∀ i, k ≤ i → t.getD i 0 = s.getD i 0) ⟨rfl, by simp, by simp⟩ (by
    rintro i t hi ⟨h1, h2, h3⟩
    rw [hf i t hi h1, wr_ok (by omega)]
    refine ⟨_, rfl, by simpa using h1, ?_, ?_⟩
    · intro j hj
      rw [getD_set (by omega)]
      split
      · subst_vars; rfl
      · exact h2 j (by omega)
    · intro j hj
      rw [getD_set (by omega), if_neg (by omega)]
      exact h3 j (by omega))
  exact ⟨t, e, h1, h2, h3⟩

theorem interiorFlux_ok {G : GridTopo} (hv : G.Valid) {trans fg cp : List Rat} {x : Nat → Rat} (ht : G.nf ≤ trans.length) (hf : G.nf ≤ fg.length) (hc : G.nc ≤ cp.length)
    (hx : ∀ c, c < G.nc → cp.getD c 0 = x c) {f : Nat} (hlt : f < G.nf) (q : List Rat) : interiorFlux G trans fg cp f q = wr q f (intFlux G trans fg x f) := by
  obtain ⟨a, b, hs⟩ := hv.sides hlt
  obtain ⟨ra, rb⟩ := hv.side_range hs
  unfold interiorFlux intFlux
  rw [rd_of_getElem? hs.1, bind_ok, rd_of_getElem? hs.2, bind_ok, getD_of_getElem? hs.1, getD_of_getElem? hs.2]
  by_cases hab : 0 ≤ a ∧ 0 ≤ b
  · rw [if_pos hab, if_pos hab]
    obtain ⟨a', rfl⟩ : ∃ a' : Nat, a = a' := ⟨a.toNat, by omega⟩
    obtain ⟨b', rfl⟩ : ∃ b' : Nat, b = b' := ⟨b.toNat, by omega⟩
    rw [rdI_natCast, rdI_natCast, rd_of_getElem? (getElem?_getD (by omega)), bind_ok, rd_of_getElem? (getElem?_getD (by omega)), bind_ok,
      rd_of_getElem? (getElem?_getD (by omega)), bind_ok, rd_of_getElem? (getElem?_getD (by omega)), bind_ok, Int.toNat_natCast, Int.toNat_natCast,
      hx a' (by omega), hx b' (by omega)]
  · rw [if_neg hab, if_neg hab]

/-- Sign of a boundary face: `1` if it points into its cell. -/
def bsign (G : GridTopo) (bc : FlowBc.Bcs) (j : Nat) : Rat := if G.faceCells.getD (2 * bface bc j) (-1) < 0 then 1 else -1

theorem intFlux_boundary {G : GridTopo} (hv : G.Valid) (trans fg : List Rat) (x : Nat → Rat) {f : Nat} (hf : f < G.nf) (h : ¬ G.Interior f) : intFlux G trans fg x f = 0 := by
  unfold intFlux
  rw [if_neg]
  rintro ⟨h1, h2⟩
  obtain ⟨a, b, hs⟩ := hv.sides hf
  rw [getD_of_getElem? hs.1] at h1
  rw [getD_of_getElem? hs.2] at h2
  exact h ⟨a.toNat, b.toNat, by rw [Int.toNat_of_nonneg h1, Int.toNat_of_nonneg h2]; exact hs⟩

theorem boundaryFluxes_ok {G : GridTopo} {bc : FlowBc.Bcs} (hv : G.Valid) (h : BcOk G bc) {trans cp fg : List Rat} {x : Nat → Rat} (ht : G.nf ≤ trans.length)
    (hf : G.nf ≤ fg.length) (hfg : ∀ f, f < G.nf → ¬ G.Interior f → fg.getD f 0 = 0) (hc : G.nc ≤ cp.length) (hx : ∀ c, c < G.nc → cp.getD c 0 = x c) {q : List Rat}
    (hq : G.nf ≤ q.length) (hqb : ∀ f, f < G.nf → ¬ G.Interior f → q.getD f 0 = 0) :
    ∃ q', boundaryFluxes G bc trans cp fg q = .ok q' ∧ q'.length = q.length ∧
      (∀ i j, i < bc.nbc → bc.condPos.getD i 0 ≤ j → j < bc.condPos.getD (i + 1) 0 → q'.getD (bface bc j) 0 = bsign G bc j * bcIn G bc trans x i j) ∧
      ∀ f, (∀ j, j < bc.condPos.getD bc.nbc 0 → bface bc j ≠ f) → q'.getD f 0 = q.getD f 0 := by
  have honce : ∀ j j', j < bc.condPos.getD bc.nbc 0 → j' < bc.condPos.getD bc.nbc 0 → bface bc j = bface bc j' → j = j' := by
    intro j j' hj hj' e
    obtain ⟨_, _, _, _, _, e1, _⟩ := bcFace_ok hv h hj
    obtain ⟨_, _, _, _, _, e2, _⟩ := bcFace_ok hv h hj'
    exact h.once j j' hj hj' (by rw [e1, e2, e])
  -- `j < n` have been handled, the others are untouched
  let P : Nat → List Rat → Prop := fun n t => t.length = q.length ∧
    (∀ i j, i < bc.nbc → bc.condPos.getD i 0 ≤ j → j < bc.condPos.getD (i + 1) 0 → j < n → t.getD (bface bc j) 0 = bsign G bc j * bcIn G bc trans x i j) ∧
    ∀ f, (∀ j, j < n → j < bc.condPos.getD bc.nbc 0 → bface bc j ≠ f) → t.getD f 0 = q.getD f 0
  suffices H : ∃ q', boundaryFluxes G bc trans cp fg q = .ok q' ∧ P (bc.condPos.getD bc.nbc 0) q' by
    obtain ⟨q', e, h1, h2, h3⟩ := H
    exact ⟨q', e, h1, fun i j hi ha hb => h2 i j hi ha hb (h.pos.lt_total hi hb), fun f hf => h3 f (fun j _ hj => hf j hj)⟩
  unfold boundaryFluxes
  refine loop_inv (P := fun k (t : List Rat) => P (bc.condPos.getD k 0) t) ⟨rfl, ?_, fun _ _ => rfl⟩ ?_
  · intro i j _ _ _ hj
    rw [h.pos.get_zero] at hj
    omega
  intro i t hi hP
  have hti : bc.type[i]? = some (bc.type.getD i .noflow) := by
    have := h.type
    rw [List.getD_eq_getElem?_getD, List.getElem?_eq_getElem (by omega)]; rfl
  have hvi : rd bc.value i = .ok (bc.value.getD i 0) := rd_of_getElem? (getElem?_getD (by have := h.value; omega))
  obtain ⟨ty, hty⟩ : ∃ ty, ty = bc.type.getD i .noflow := ⟨_, rfl⟩
  -- handling entry `j` by writing the right value
  have hstep : ∀ j t v, bc.condPos.getD i 0 ≤ j → j < bc.condPos.getD (i + 1) 0 → P j t → v = bsign G bc j * bcIn G bc trans x i j →
      ∃ t', wr t (bface bc j) v = .ok t' ∧ P (j + 1) t' := by
    rintro j t v h1 h2 ⟨p1, p2, p3⟩ hv'
    have hj := h.pos.lt_total hi h2
    obtain ⟨_, _, _, _, hlt, _⟩ := bcFace_ok hv h hj
    rw [wr_ok (by omega)]
    refine ⟨_, rfl, by simpa using p1, ?_, ?_⟩
    · intro i' j' hi' h3 h4 h5
      rw [getD_set (by omega)]
      split
      · rename_i e
        have := honce j' j (h.pos.lt_total hi' h4) hj e
        subst this
        have := h.pos.row_unique hi' hi h3 h4 h1 h2
        subst this
        exact hv'
      · rename_i e
        have : j' ≠ j := fun e' => e (by rw [e'])
        exact p2 i' j' hi' h3 h4 (by omega)
    · intro f hf'
      rw [getD_set (by omega), if_neg (Ne.symm (hf' j (by omega) hj))]
      exact p3 f (fun j' h3 h4 => hf' j' (by omega) h4)
  unfold bcFlux
  rw [rd_of_getElem? hti, bind_ok, ← hty]
  cases ty with
  | noflow =>
    refine ⟨t, rfl, hP.1, ?_, ?_⟩
    · intro i' j' hi' h3 h4 h5
      by_cases e : j' < bc.condPos.getD i 0
      · exact hP.2.1 i' j' hi' h3 h4 e
      · have := h.pos.row_unique hi' hi h3 h4 (by omega) h5
        subst this
        have hj := h.pos.lt_total hi' h4
        obtain ⟨_, _, _, _, hlt, _⟩ := bcFace_ok hv h hj
        rw [hP.2.2 (bface bc j') (fun j'' h6 h7 e => by have := honce _ _ h7 hj e; omega), hqb _ hlt (bc_not_interior hv h hj)]
        unfold bcIn
        rw [← hty]
        simp
    · intro f hf'
      exact hP.2.2 f (fun j h1 h2 => hf' j (by have := h.pos.le hi; omega) h2)
  | pressure =>
    simp only []
    rw [rd_of_getElem? (h.pos.get (by omega)), bind_ok, rd_of_getElem? (h.pos.get (c := i + 1) hi), bind_ok]
    refine forRange_inv (P := P) (h.pos.le hi) hP ?_
    intro j t h1 h2 hP
    have hj := h.pos.lt_total hi h2
    obtain ⟨a, b, e, hs, hlt, _, hcl, hab⟩ := bcFace_ok hv h hj
    rw [e, bind_ok, hvi, bind_ok]
    have hci : (if a < 0 then b else a) = (bcell G bc j : Int) := by
      rcases hab with ⟨h1, h2⟩ | ⟨h1, h2⟩
      · rw [if_neg (by omega), h1]
      · rw [if_pos (by omega), h2]
    simp only [hci, rdI_natCast]
    rw [rd_of_getElem? (getElem?_getD (by omega)), bind_ok, rd_of_getElem? (getElem?_getD (by omega)), bind_ok, rd_of_getElem? (getElem?_getD (by omega)), bind_ok]
    refine hstep j t _ h1 h2 hP ?_
    rw [hfg _ hlt (bc_not_interior hv h hj), hx _ hcl]
    unfold bsign bcIn
    rw [← hty, getD_of_getElem? hs.1]
    simp only []
    split <;> ring
  | fluxTotvol =>
    simp only []
    have hsing := h.single i _ _ hi (by rw [hti, ← hty]) (h.pos.get (by omega)) (h.pos.get (c := i + 1) hi)
    rw [rd_of_getElem? (h.pos.get (by omega)), bind_ok, rd_of_getElem? (h.pos.get (c := i + 1) hi), bind_ok, check_ok (by simpa using hsing), bind_ok]
    refine forRange_inv (P := P) (h.pos.le hi) hP ?_
    intro j t h1 h2 hP
    have hj := h.pos.lt_total hi h2
    obtain ⟨a, b, e, hs, hlt, _, hcl, hab⟩ := bcFace_ok hv h hj
    rw [e, bind_ok, hvi, bind_ok]
    refine hstep j t _ h1 h2 hP ?_
    unfold bsign bcIn
    rw [← hty, getD_of_getElem? hs.1]

/-- The same fluxes as a sum. -/
theorem flux_as_sum {G : GridTopo} {bc : FlowBc.Bcs} (hv : G.Valid) (h : BcOk G bc) {trans fg : List Rat} {x q : Nat → Rat}
    (h1 : ∀ i j, i < bc.nbc → bc.condPos.getD i 0 ≤ j → j < bc.condPos.getD (i + 1) 0 → q (bface bc j) = bsign G bc j * bcIn G bc trans x i j)
    (h2 : ∀ f, f < G.nf → (∀ j, j < bc.condPos.getD bc.nbc 0 → bface bc j ≠ f) → q f = intFlux G trans fg x f) {f : Nat} (hf : f < G.nf) :
    q f = intFlux G trans fg x f + ∑ i ∈ Finset.range bc.nbc, ∑ j ∈ Finset.Ico (bc.condPos.getD i 0) (bc.condPos.getD (i + 1) 0),
      if f = bface bc j then bsign G bc j * bcIn G bc trans x i j else 0 := by
  have honce : ∀ j j', j < bc.condPos.getD bc.nbc 0 → j' < bc.condPos.getD bc.nbc 0 → bface bc j = bface bc j' → j = j' := by
    intro j j' hj hj' e
    obtain ⟨_, _, _, _, _, e1, _⟩ := bcFace_ok hv h hj
    obtain ⟨_, _, _, _, _, e2, _⟩ := bcFace_ok hv h hj'
    exact h.once j j' hj hj' (by rw [e1, e2, e])
  by_cases hex : ∃ i j, i < bc.nbc ∧ bc.condPos.getD i 0 ≤ j ∧ j < bc.condPos.getD (i + 1) 0 ∧ bface bc j = f
  · obtain ⟨i, j, hi, ha, hb, rfl⟩ := hex
    have hj := h.pos.lt_total hi hb
    rw [intFlux_boundary hv trans fg x hf (bc_not_interior hv h hj), zero_add, h1 i j hi ha hb, Finset.sum_eq_single i, Finset.sum_eq_single j, if_pos rfl]
    · intro j' hj' hne
      rw [Finset.mem_Ico] at hj'
      rw [if_neg]
      intro e
      exact hne (honce _ _ hj (h.pos.lt_total hi hj'.2) e).symm
    · intro hn
      exact absurd (Finset.mem_Ico.2 ⟨ha, hb⟩) hn
    · intro i' hi' hne
      rw [Finset.mem_range] at hi'
      refine Finset.sum_eq_zero fun j' hj' => ?_
      rw [Finset.mem_Ico] at hj'
      rw [if_neg]
      intro e
      have := honce _ _ hj (h.pos.lt_total hi' hj'.2) e
      subst this
      exact hne (h.pos.row_unique hi' hi hj'.1 hj'.2 ha hb)
    · intro hn
      exact absurd (Finset.mem_range.2 hi) hn
  · have hz : ∑ i ∈ Finset.range bc.nbc, ∑ j ∈ Finset.Ico (bc.condPos.getD i 0) (bc.condPos.getD (i + 1) 0),
      (if f = bface bc j then bsign G bc j * bcIn G bc trans x i j else 0) = 0 := by
      refine Finset.sum_eq_zero fun i hi => Finset.sum_eq_zero fun j hj => ?_
      rw [Finset.mem_range] at hi
      rw [Finset.mem_Ico] at hj
      rw [if_neg]
      intro e
      exact hex ⟨i, j, hi, hj.1, hj.2, e.symm⟩
    rw [hz, add_zero]
    refine h2 f hf fun j hj e => hex ?_
    obtain ⟨i, hi, ha, hb⟩ := h.pos.exists_row hj
    exact ⟨i, j, hi, ha, hb, e⟩

theorem netOutflow_congr {G : GridTopo} {q q' : Nat → Rat} (h : ∀ f, f < G.nf → q f = q' f) (c : Nat) : G.netOutflow q c = G.netOutflow q' c := by
  unfold GridTopo.netOutflow
  refine Finset.sum_congr rfl fun f hf => ?_
  rw [h f (Finset.mem_range.1 hf)]

theorem netOutflow_add (G : GridTopo) (q q' : Nat → Rat) (c : Nat) : G.netOutflow (fun f => q f + q' f) c = G.netOutflow q c + G.netOutflow q' c := by
  unfold GridTopo.netOutflow
  rw [← Finset.sum_add_distrib]
  refine Finset.sum_congr rfl fun f _ => ?_
  split <;> split <;> ring

theorem netOutflow_sum (G : GridTopo) {ι : Type} (s : Finset ι) (q : ι → Nat → Rat) (c : Nat) : G.netOutflow (fun f => ∑ i ∈ s, q i f) c = ∑ i ∈ s, G.netOutflow (q i) c := by
  unfold GridTopo.netOutflow
  rw [Finset.sum_comm]
  refine Finset.sum_congr rfl fun f _ => ?_
  rw [Finset.sum_sub_distrib]
  split <;> split <;> simp

theorem netOutflow_single (G : GridTopo) {f0 : Nat} (hf : f0 < G.nf) (v : Rat) (c : Nat) :
    G.netOutflow (fun f => if f = f0 then v else 0) c = (if G.faceCells[2 * f0]? = some (c : Int) then v else 0) - (if G.faceCells[2 * f0 + 1]? = some (c : Int) then v else 0) := by
  unfold GridTopo.netOutflow
  rw [Finset.sum_eq_single f0]
  · simp
  · intro f _ hne
    simp [hne]
  · intro hn
    exact absurd (Finset.mem_range.2 hf) hn

/-- With the fluxes of the boundary faces, the net outflow is what the equations say. -/
theorem netOutflow_bc {G : GridTopo} {bc : FlowBc.Bcs} (hv : G.Valid) (h : BcOk G bc) {trans fg : List Rat} {x q : Nat → Rat}
    (h1 : ∀ i j, i < bc.nbc → bc.condPos.getD i 0 ≤ j → j < bc.condPos.getD (i + 1) 0 → q (bface bc j) = bsign G bc j * bcIn G bc trans x i j)
    (h2 : ∀ f, f < G.nf → (∀ j, j < bc.condPos.getD bc.nbc 0 → bface bc j ≠ f) → q f = intFlux G trans fg x f) (c : Nat) :
    G.netOutflow q c = G.netOutflow (intFlux G trans fg x) c - bcSum G bc trans (x, c) := by
  rw [netOutflow_congr (fun f hf => flux_as_sum hv h h1 h2 hf) c, netOutflow_add, netOutflow_sum, sub_eq_add_neg]
  congr 1
  unfold bcSum
  rw [← Finset.sum_neg_distrib]
  refine Finset.sum_congr rfl fun i hi => ?_
  rw [netOutflow_sum, ← Finset.sum_neg_distrib]
  refine Finset.sum_congr rfl fun j hj => ?_
  rw [Finset.mem_range] at hi
  rw [Finset.mem_Ico] at hj
  obtain ⟨a, b, e, hs, hlt, _, hcl, hab⟩ := bcFace_ok hv h (h.pos.lt_total hi hj.2)
  rw [netOutflow_single G hlt, hs.1, hs.2]
  have hsg : bsign G bc j = if a < 0 then 1 else -1 := by unfold bsign; rw [getD_of_getElem? hs.1]
  rcases hab with ⟨e1, e2⟩ | ⟨e1, e2⟩
  · rw [if_neg (by omega)] at hsg
    rw [hsg, e1, e2]
    by_cases hc : c = bcell G bc j
    · subst hc; simp
    · have hc' : ¬ (bcell G bc j : Int) = c := by omega
      simp [hc, hc']
  · rw [if_pos (by omega)] at hsg
    rw [hsg, e1, e2]
    by_cases hc : c = bcell G bc j
    · subst hc; simp
    · have hc' : ¬ (bcell G bc j : Int) = c := by omega
      simp [hc, hc']

/-! ## Wells -/

/-- The perforation flux computed from the pressures `x`. -/
def aFlux (nc : Nat) (W : Wells.W) (mt wdp : List Rat) (m : WellMode) (x : Nat → Rat) (w i : Nat) : Rat :=
  match m with
  | .shut => 0
  | _ => pT W mt i * (x (nc + w) + wdp.getD i 0 - x (pcell W i))

theorem mode_shut {W : Wells.W} {w : Nat} {m : WellMode} (h : HasMode W w m) : ∃ c, W.ctrls[w]? = some c ∧ (c.current < 0 ↔ m = .shut) := by
  obtain ⟨c, hc, hm⟩ := h
  refine ⟨c, hc, ?_⟩
  cases m with
  | shut => simpa using hm
  | bhp p => obtain ⟨k, hk, _⟩ := hm; simp; omega
  | rate q => obtain ⟨k, hk, _⟩ := hm; simp; omega

theorem wellFluxes_ok {G : GridTopo} {F : Forces} {W : Wells.W} (hW : WellsOk G W) (hmt : G.nc ≤ (mtOf F).length) (hwdp : numPerf W ≤ (wdpOf F).length) {mode : Nat → WellMode}
    (hm : ∀ w, w < W.nw → HasMode W w (mode w)) {xs cp : List Rat} (hx : G.nc + W.nw ≤ xs.length) (hc : G.nc ≤ cp.length)
    (hcp : ∀ c, c < G.nc → cp.getD c 0 = xs.getD c 0) {q : List Rat} (hq : numPerf W ≤ q.length) :
    ∃ q', wellFluxes G.nc F W xs cp (some q) = .ok (some q') ∧ q'.length = q.length ∧
      ∀ w i, w < W.nw → W.connpos.getD w 0 ≤ i → i < W.connpos.getD (w + 1) 0 →
        q'.getD i 0 = aFlux G.nc W (mtOf F) (wdpOf F) (mode w) (fun k => xs.getD k 0) w i := by
  let v : Nat → Nat → Rat := fun w i => aFlux G.nc W (mtOf F) (wdpOf F) (mode w) (fun k => xs.getD k 0) w i
  have hcur : ∀ w, ∃ b : Bool, w < W.nw → ∃ c, W.ctrls[w]? = some c ∧ decide (c.current < 0) = b ∧ (b = true ↔ mode w = .shut) := by
    intro w
    by_cases hw : w < W.nw
    · obtain ⟨c, h1, h2⟩ := mode_shut (hm w hw)
      exact ⟨decide (c.current < 0), fun _ => ⟨c, h1, rfl, by simpa using h2⟩⟩
    · exact ⟨true, fun h => absurd h hw⟩
  choose B hB using hcur
  unfold wellFluxes
  simp only []
  obtain ⟨t, e, h1, h2⟩ := rowLoopPre_inv hW.pos (s := q)
    (pre := fun w => do
        let bhp ← rd xs (G.nc + w)
        let c ← rd W.ctrls w
        .ok (bhp, decide (c.current < 0)))
    (f := fun _ (t : Rat × Bool) i q => do
        let p ← perf W (F.totmob.getD []) i
        let d ← rd (F.wdp.getD []) i
        let pc ← rd cp p.1
        wr q i (if t.2 then 0 else p.2 * (t.1 + d - pc)))
    (fun w => (xs.getD (G.nc + w) 0, B w))
    (by
      intro w hw
      obtain ⟨c, h1, h2, _⟩ := hB w hw
      rw [rd_of_getElem? (getElem?_getD (by omega)), bind_ok, rd_of_getElem? h1, bind_ok, h2])
    (fun _ n (t : List Rat) => t.length = q.length ∧ ∀ w i, w < W.nw → W.connpos.getD w 0 ≤ i → i < W.connpos.getD (w + 1) 0 → i < n → t.getD i 0 = v w i)
    ⟨rfl, fun _ _ _ _ _ h => absurd h (by omega)⟩
    (by
      rintro w i t hw ha hb ⟨p1, p2⟩
      have hi := hW.pos.lt_total hw hb
      have hi' : i < numPerf W := hi
      obtain ⟨h3, h4⟩ := cell_at hW hi
      have hper : perf W (F.totmob.getD []) i = .ok (pcell W i, pT W (mtOf F) i) := by
        show perf W (mtOf F) i = _
        unfold perf
        have := hW.wi
        rw [rd_of_getElem? h3, bind_ok, index_ok, bind_ok, rd_of_getElem? (getElem?_getD (by omega)), bind_ok, rd_of_getElem? (getElem?_getD (by omega)), bind_ok]
        rfl
      have hd : rd (F.wdp.getD []) i = .ok ((wdpOf F).getD i 0) := rd_of_getElem? (getElem?_getD (by unfold wdpOf at hwdp; omega))
      have hpc : pcell W i < G.nc := h4
      simp only []
      rw [hper, bind_ok, hd, bind_ok, rd_of_getElem? (getElem?_getD (by omega)), bind_ok, wr_ok (by omega)]
      refine ⟨_, rfl, by simpa using p1, ?_⟩
      intro w' i' hw' ha' hb' hlt
      rw [getD_set (by omega)]
      split
      · rename_i e
        subst e
        have := hW.pos.row_unique hw hw' ha hb ha' hb'
        subst this
        obtain ⟨c, _, _, hiff⟩ := hB w hw
        simp only [v, aFlux]
        rw [hcp _ hpc]
        cases hb : B w with
        | true => rw [hiff.1 hb]; simp
        | false =>
          have : mode w ≠ .shut := fun e => by rw [hiff.2 e] at hb; cases hb
          cases hmo : mode w with
          | shut => exact absurd hmo this
          | bhp p => simp
          | rate p => simp
      · exact p2 w' i' hw' ha' hb' (by omega))
    (fun _ _ _ h => h)
  rw [e, bind_ok]
  exact ⟨t, rfl, h1, fun w i hw ha hb => h2 w i hw ha hb (hW.pos.lt_total hw hb)⟩

theorem wellPressures_ok {G : GridTopo} {W : Wells.W} {mode : Nat → WellMode} (hm : ∀ w, w < W.nw → HasMode W w (mode w)) {xs : List Rat} (hx : G.nc + W.nw ≤ xs.length)
    {p : List Rat} (hp : W.nw ≤ p.length) :
    ∃ p', wellPressures G.nc W xs (some p) = .ok (some p') ∧ p'.length = p.length ∧
      ∀ w, w < W.nw → p'.getD w 0 = if mode w = .shut then p.getD w 0 else xs.getD (G.nc + w) 0 := by
  unfold wellPressures
  simp only []
  obtain ⟨t, e, h1, h2, _⟩ := loop_inv (n := W.nw) (s := p) (f := fun w p => do
      let c ← rd W.ctrls w
      if 0 ≤ c.current then do
        let v ← rd xs (G.nc + w)
        wr p w v
      else .ok p)
    (P := fun k (t : List Rat) => t.length = p.length ∧ (∀ w, w < k → t.getD w 0 = if mode w = .shut then p.getD w 0 else xs.getD (G.nc + w) 0) ∧
      ∀ w, k ≤ w → t.getD w 0 = p.getD w 0) ⟨rfl, by simp, by simp⟩ (by
    rintro w t hw ⟨h1, h2, h3⟩
    obtain ⟨c, hc, hcur⟩ := mode_shut (hm w hw)
    rw [rd_of_getElem? hc, bind_ok]
    by_cases hs : mode w = .shut
    · rw [if_neg (by have := hcur.2 hs; omega)]
      refine ⟨t, rfl, h1, ?_, fun w' h => h3 w' (by omega)⟩
      intro w' hw'
      by_cases e : w' = w
      · subst e; rw [if_pos hs]; exact h3 _ (le_refl _)
      · exact h2 w' (by omega)
    · rw [if_pos (by by_contra hn; exact hs (hcur.1 (by omega))), rd_of_getElem? (getElem?_getD (by omega)), bind_ok, wr_ok (by omega)]
      refine ⟨_, rfl, by simpa using h1, ?_, ?_⟩
      · intro w' hw'
        rw [getD_set (by omega)]
        split
        · subst_vars; rw [if_neg hs]
        · exact h2 w' (by omega)
      · intro w' h
        rw [getD_set (by omega), if_neg (by omega)]
        exact h3 w' (by omega))
  rw [e, bind_ok]
  exact ⟨t, rfl, h1, h2⟩

/-! ## Everything -/

/-- What `ifs_tpfa_press_flux` computes. -/
structure FluxOk (G : GridTopo) (F : Forces) (mode : Nat → WellMode) (trans fg xs : List Rat) (s0 s : Soln) : Prop where
  cell : ∀ c, c < G.nc → s.cellPress.getD c 0 = xs.getD c 0
  bc : ∀ bc, F.bc = some bc → ∀ i j, i < bc.nbc → bc.condPos.getD i 0 ≤ j → j < bc.condPos.getD (i + 1) 0 →
    s.faceFlux.getD (bface bc j) 0 = bsign G bc j * bcIn G bc trans (fun k => xs.getD k 0) i j
  face : ∀ f, f < G.nf → (∀ bc, F.bc = some bc → ∀ j, j < bc.condPos.getD bc.nbc 0 → bface bc j ≠ f) → s.faceFlux.getD f 0 = intFlux G trans fg (fun k => xs.getD k 0) f
  perf : ∀ W, F.wells = some W → ∀ w i, w < W.nw → W.connpos.getD w 0 ≤ i → i < W.connpos.getD (w + 1) 0 →
    s.perfFlux i = aFlux G.nc W (mtOf F) (wdpOf F) (mode w) (fun k => xs.getD k 0) w i
  well : ∀ W p0, F.wells = some W → s0.wellPress = some p0 → ∃ p, s.wellPress = some p ∧
    ∀ w, w < W.nw → p.getD w 0 = if mode w = .shut then p0.getD w 0 else xs.getD (G.nc + w) 0

theorem forceFluxes_getD (G : GridTopo) (F : Option Forces) (trans : List Rat) (h : Data) (s : Soln) :
    forceFluxes G F trans h s = forceFluxes G (some (F.getD noForces)) trans h s := by
  cases F <;> rfl

theorem pressFlux_ok {G : GridTopo} {F : Option Forces} (hv : G.Valid) (hF : ForcesOk G (F.getD noForces)) {mode : Nat → WellMode} (hm : Modes (F.getD noForces) mode)
    {trans : List Rat} (ht : G.nf ≤ trans.length) {h : Data} (hfl : G.nf ≤ h.fgrav.length) (hfg : ∀ f, f < G.nf → ¬ G.Interior f → h.fgrav.getD f 0 = 0)
    (hxc : G.nc ≤ h.x.length) (hxw : ∀ W, (F.getD noForces).wells = some W → G.nc + W.nw ≤ h.x.length) {s : Soln} (hs : SolnOk G (F.getD noForces) s) :
    ∃ s', pressFlux G F trans h s = .ok s' ∧ SolnOk G (F.getD noForces) s' ∧ FluxOk G (F.getD noForces) mode trans h.fgrav h.x s s' := by
  obtain ⟨cp, e1, l1, v1, _⟩ := loop_write (n := G.nc) (s := s.cellPress) (f := fun c p => do
    let v ← rd h.x c
    wr p c v) (fun c => h.x.getD c 0) hs.cell (by
      intro c t hc _
      rw [rd_of_getElem? (getElem?_getD (by omega)), bind_ok])
  have hcl : G.nc ≤ cp.length := by rw [l1]; exact hs.cell
  obtain ⟨q, e2, l2, v2, _⟩ := loop_write (n := G.nf) (s := s.faceFlux) (f := interiorFlux G trans h.fgrav cp) (intFlux G trans h.fgrav (fun k => h.x.getD k 0)) hs.face (by
      intro f t hf _
      exact interiorFlux_ok hv ht hfl hcl v1 hf t)
  have hql : G.nf ≤ q.length := by rw [l2]; exact hs.face
  unfold pressFlux
  rw [e1, bind_ok, e2, bind_ok, forceFluxes_getD]
  generalize F.getD noForces = F' at hF hm hxw hs ⊢
  unfold forceFluxes
  simp only []
  -- boundary conditions
  have hb : ∃ q', bcFluxPart G F' trans cp h.fgrav q = .ok q' ∧ q'.length = q.length ∧
      (∀ bc, F'.bc = some bc → ∀ i j, i < bc.nbc → bc.condPos.getD i 0 ≤ j → j < bc.condPos.getD (i + 1) 0 →
        q'.getD (bface bc j) 0 = bsign G bc j * bcIn G bc trans (fun k => h.x.getD k 0) i j) ∧
      ∀ f, f < G.nf → (∀ bc, F'.bc = some bc → ∀ j, j < bc.condPos.getD bc.nbc 0 → bface bc j ≠ f) →
        q'.getD f 0 = intFlux G trans h.fgrav (fun k => h.x.getD k 0) f := by
    unfold bcFluxPart
    cases hB : F'.bc with
    | none => exact ⟨q, rfl, rfl, (by intro _ e; cases e), fun f hf _ => v2 f hf⟩
    | some bc =>
      obtain ⟨q', e, l, h1, h2⟩ := boundaryFluxes_ok hv (hF.bc bc hB) (x := fun k => h.x.getD k 0) ht hfl hfg hcl v1 hql
        (fun f hf hn => by rw [v2 f hf]; exact intFlux_boundary hv _ _ _ hf hn)
      refine ⟨q', e, l, fun bc' e' => ?_, fun f hf hn => ?_⟩
      · cases e'; exact h1
      · rw [h2 f (hn bc rfl)]; exact v2 f hf
  obtain ⟨q', e3, l3, b1, b2⟩ := hb
  have hql' : G.nf ≤ q'.length := by rw [l3]; exact hql
  rw [e3, bind_ok]
  cases hW : F'.wells with
  | none =>
    refine ⟨_, rfl, ⟨hcl, hql', fun W p e => (by rw [hW] at e; cases e), fun W e => (by rw [hW] at e; cases e)⟩, v1, b1, b2,
      fun W e => (by rw [hW] at e; cases e), fun W p e => (by rw [hW] at e; cases e)⟩
  | some W =>
    obtain ⟨hw1, mt, wdp, et, ed, hmt, hwdp⟩ := hF.wells W hW
    obtain ⟨wf, ewf, hwf⟩ := hs.wellFlux W hW
    have ht' : mtOf F' = mt := by unfold mtOf; rw [et]; rfl
    have hd' : wdpOf F' = wdp := by unfold wdpOf; rw [ed]; rfl
    obtain ⟨wf', e5, l5, v5⟩ := wellFluxes_ok hw1 (F := F') (by rw [ht']; exact hmt) (by rw [hd']; exact hwdp) (hm W hW) (hxw W hW) hcl v1 hwf
    simp only []
    cases hP : s.wellPress with
    | none =>
      rw [show wellPressures G.nc W h.x none = .ok none from rfl, bind_ok, ewf, e5, bind_ok]
      refine ⟨_, rfl, ⟨hcl, hql', fun W p _ e => (by cases e), fun W' e => ?_⟩, v1, b1, b2, fun W' e => ?_, fun W p _ e => by rw [hP] at e; cases e⟩
      · rw [hW] at e; cases e; exact ⟨wf', rfl, by omega⟩
      · rw [hW] at e; cases e; exact v5
    | some p =>
      obtain ⟨p', e6, l6, v6⟩ := wellPressures_ok (hm W hW) (hxw W hW) (hs.wellPress W p hW hP)
      rw [e6, bind_ok, ewf, e5, bind_ok]
      refine ⟨_, rfl, ⟨hcl, hql', fun W' p'' e e' => ?_, fun W' e => ?_⟩, v1, b1, b2, fun W' e => ?_, fun W' p0 e e' => ?_⟩
      · rw [hW] at e; cases e; cases e'
        have := hs.wellPress W p hW hP
        omega
      · rw [hW] at e; cases e; exact ⟨wf', rfl, by omega⟩
      · rw [hW] at e; cases e; exact v5
      · rw [hW] at e; cases e
        rw [hP] at e'
        cases e'
        exact ⟨p', rfl, v6⟩

end Opm.IfsTpfa
