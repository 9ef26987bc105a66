import Verif.Proofs.IfsSingular
/-! # Compressible rock: what the extra terms do to the residual -/

namespace Opm.IfsTpfa
open Opm Opm.SparseSys Graph

theorem Pattern.col_lt {G : GridTopo} {W : Option Wells.W} {A : Csr} (h : Pattern G W A) (hv : G.Valid) (hW : ∀ W', W = some W' → WellsOk G W') {r p : Nat}
    (hr : r < A.m) (h1 : A.ia.getD r 0 ≤ p) (h2 : p < A.ia.getD (r + 1) 0) : A.ja[p]? = some (A.ja.getD p 0) ∧ A.ja.getD p 0 < A.m := by
  have hlen : p < A.ja.length := by
    have := h.mat.pos.lt_total hr h2
    rw [h.mat.nnz] at this
    rw [h.mat.ja]; exact this
  have hget : A.ja[p]? = some (A.ja.getD p 0) := by
    rw [List.getD_eq_getElem?_getD, List.getElem?_eq_getElem hlen]; rfl
  refine ⟨hget, ?_⟩
  have hmem : A.ja.getD p 0 ∈ block A.ja A.ia r := by
    unfold block
    rw [h.mat.pos.get (c := r) (by omega), h.mat.pos.get (c := r + 1) hr]
    simp only
    refine List.mem_of_getElem? (i := p - A.ia.getD r 0) ?_
    rw [List.getElem?_take, if_pos (by omega), List.getElem?_drop, show A.ia.getD r 0 + (p - A.ia.getD r 0) = p by omega, hget]
  have hmem' := (h.row r hr).mem_iff.1 hmem
  rw [List.mem_map] at hmem'
  obtain ⟨q, hq, e⟩ := hmem'
  have := (allItems_lt hv hW q (List.mem_filter.1 hq).1).2
  rw [h.m, ← e]; exact this

theorem multCsr_ok {A : Csr} (hA : MatOk A) (hcol : ∀ r p, r < A.m → A.ia.getD r 0 ≤ p → p < A.ia.getD (r + 1) 0 → A.ja[p]? = some (A.ja.getD p 0) ∧ A.ja.getD p 0 < A.m)
    {sa u v : List Rat} (hsa : sa.length = A.nnz) (hu : A.m ≤ u.length) (hv : v.length = A.m) :
    ∃ v', multCsr A sa u v = .ok v' ∧ v'.length = A.m ∧ ∀ i, i < A.m → v'.getD i 0 = rowDot A sa (fun k => u.getD k 0) i := by
  unfold multCsr
  obtain ⟨r, e, h1, h2, h3⟩ := loop_inv (n := A.m) (s := ((0, v) : Nat × List Rat)) (f := fun i (r : Nat × List Rat) => do
    let v ← wr r.2 i 0
    let e ← rd A.ia (i + 1)
    let v ← forRange r.1 e (fun j v => do
      let a ← rd sa j
      let c ← rd A.ja j
      let x ← rd u c
      addAt v i (a * x)) v
    .ok (max r.1 e, v))
    (fun k (r : Nat × List Rat) => r.1 = A.ia.getD k 0 ∧ r.2.length = A.m ∧ ∀ i, i < k → r.2.getD i 0 = rowDot A sa (fun k => u.getD k 0) i)
    ⟨hA.pos.get_zero.symm, hv, fun i hi => absurd hi (by omega)⟩ (by
      rintro i ⟨p, t⟩ hi ⟨rfl, hl, hr⟩
      simp only at hl hr ⊢
      rw [wr_ok (by omega), bind_ok, rd_of_getElem? (hA.pos.get (c := i + 1) hi), bind_ok]
      have hle := hA.pos.le hi
      obtain ⟨t', e', k1, k2⟩ := forRange_sum hle (s := t.set i 0) (f := fun j v => do
          let a ← rd sa j
          let c ← rd A.ja j
          let x ← rd u c
          addAt v i (a * x)) (fun t : List Rat => t.length = A.m) (fun t (k : Nat) => t.getD k 0)
        (fun j k => if k = i then sa.getD j 0 * u.getD (A.ja.getD j 0) 0 else 0) (by simp [hl]) (by
          intro j t hj1 hj2 hk
          obtain ⟨g1, g2⟩ := hcol i j hi hj1 hj2
          have hjs : j < sa.length := by
            have := hA.pos.lt_total hi hj2
            rw [hA.nnz] at this
            rw [hsa]; exact this
          rw [rd_of_getElem? (getElem?_getD hjs), bind_ok, rd_of_getElem? g1, bind_ok, rd_of_getElem? (getElem?_getD (by omega)), bind_ok, addAt_ok (by omega)]
          refine ⟨_, rfl, by simp [hk], fun r => ?_⟩
          rw [getD_addAt (by omega)])
      rw [e', bind_ok]
      refine ⟨_, rfl, by simp only; omega, k1, fun j hj => ?_⟩
      simp only
      rw [k2, getD_set (by omega)]
      by_cases hji : j = i
      · subst hji
        simp only [if_true, zero_add]
        rfl
      · simp only [if_neg hji, Finset.sum_const_zero, add_zero]
        exact hr j (by omega))
  rw [e, bind_ok]
  exact ⟨_, rfl, h2, h3⟩

/-- The accumulation loop. -/
theorem rock_loop {G : GridTopo} {F : Option Forces} {A : Csr} (hA : Fits G F A) (d e : Nat → Rat) {f : Nat → Sys → M Sys} {s : Sys} (hs : SysOk A s)
    (hf : ∀ c j t, c < G.nc → elmIndex c c A.ia A.ja = .ok j → f c t = (do let s ← addSa j (d c) t; addB c (e c) s)) :
    ∃ s', loop G.nc f s = .ok s' ∧ SysOk A s' ∧ ∀ xr : XR, Res A s' xr = Res A s xr + if xr.2 < G.nc then e xr.2 - d xr.2 * xr.1 xr.2 else 0 := by
  have hnc := hA.nc
  obtain ⟨s', e1, k, r⟩ := loop_sum (n := G.nc) (s := s) (f := f) (SysOk A) (Res A) (fun c xr => if xr.2 = c then e c - d c * xr.1 c else 0) hs (by
    intro c t hc hk
    obtain ⟨j, hj⟩ := hA.diag c (by omega)
    rw [hf c j t hc hj.2.1]
    obtain ⟨t1, e1, k1, _, r1⟩ := addSa_res hA.mat hk hj (d c)
    obtain ⟨t2, e2, k2, _, r2⟩ := addB_res (i := c) k1 (by omega) (e c)
    rw [e1, bind_ok, e2]
    refine ⟨t2, rfl, k2, fun xr => ?_⟩
    rw [r2, r1]
    split <;> ring)
  refine ⟨s', e1, k, fun xr => ?_⟩
  rw [r, Finset.sum_ite_eq]
  simp

theorem incrementWells_ok {G : GridTopo} {F : Option Forces} {A : Csr} (hA : Fits G F A) (hF : F ≠ none) {v : List Rat} (hv : v.length = A.m) {s : Sys} (hs : SysOk A s) :
    ∃ s', incrementWells G F v s = .ok s' ∧ SysOk A s' ∧ ∀ xr : XR, Res A s' xr = Res A s xr +
      match (F.getD noForces).wells with
      | none => 0
      | some W => if G.nc ≤ xr.2 ∧ xr.2 < G.nc + W.nw then -(v.getD xr.2 0) else 0 := by
  unfold incrementWells
  cases F with
  | none => exact absurd rfl hF
  | some F =>
    simp only [Option.getD_some]
    cases hW : F.wells with
    | none => exact ⟨s, rfl, hs, fun xr => by simp⟩
    | some W =>
      obtain ⟨hm, _⟩ := hA.wells F W rfl hW
      obtain ⟨s', e1, k, r⟩ := loop_sum (n := W.nw) (s := s) (f := fun w s => do
        let x ← rd v (G.nc + w)
        addB (G.nc + w) (-x) s) (SysOk A) (Res A) (fun w xr => if xr.2 = G.nc + w then -(v.getD xr.2 0) else 0) hs (by
        intro w t hw hk
        obtain ⟨t1, e1, k1, _, r1⟩ := addB_res (i := G.nc + w) hk (by omega) (-(v.getD (G.nc + w) 0))
        rw [rd_of_getElem? (getElem?_getD (by omega)), bind_ok]
        refine ⟨t1, e1, k1, fun xr => ?_⟩
        rw [r1]
        split
        · rename_i h; rw [h]
        · rfl)
      refine ⟨s', e1, k, fun xr => ?_⟩
      rw [r]
      simp only
      congr 1
      by_cases h : G.nc ≤ xr.2 ∧ xr.2 < G.nc + W.nw
      · rw [if_pos h, Finset.sum_eq_single (xr.2 - G.nc)]
        · rw [if_pos (by omega)]
        · intro w _ hne
          rw [if_neg (by omega)]
        · intro hn
          rw [Finset.mem_range] at hn
          omega
      · rw [if_neg h]
        refine Finset.sum_eq_zero fun w hw => ?_
        rw [Finset.mem_range] at hw
        rw [if_neg (by omega)]

/-- Assembly with compressible rock: the residual. -/
theorem assembleComprock_ok {G : GridTopo} {F : Option Forces} {trans gpress : List Rat} {h : Data} (st : Setting G F trans gpress h) {mode : Nat → WellMode}
    (hm : Modes (F.getD noForces) mode) {porevol rockComp pressure : List Rat} {dt : Rat} (hdt : dt ≠ 0) (h1 : G.nc ≤ porevol.length) (h2 : G.nc ≤ rockComp.length)
    (h3 : G.nc ≤ pressure.length) :
    ∃ h', assembleComprock G F trans gpress porevol rockComp dt pressure h = .ok (h', true) ∧ SameShape h h' ∧ GravOk G gpress h'.fgrav ∧
      ∀ xr : XR, Res h.A ⟨h'.sa, h'.b⟩ xr = balance G (F.getD noForces) mode trans h'.fgrav xr -
        if xr.2 < G.nc then porevol.getD xr.2 0 * rockComp.getD xr.2 0 / dt * (xr.1 xr.2 - pressure.getD xr.2 0) else 0 := by
  obtain ⟨h', sing, e, hA, hx, hwk, hd, hg, hfl, _, hres⟩ := assembleIncompressible_ok st.valid st.first st.fits st.forces hm st.sizes st.data
  obtain ⟨s, es, ks, rs⟩ := rock_loop st.fits (fun c => porevol.getD c 0 * rockComp.getD c 0 / dt) (fun c => porevol.getD c 0 * rockComp.getD c 0 / dt * pressure.getD c 0)
    (f := fun c s => do
      let j ← elmIndex c c h.A.ia h.A.ja
      let pv ← rd porevol c
      let rc ← rd rockComp c
      let d ← fdiv (pv * rc) dt
      let p ← rd pressure c
      let s ← addSa j d s
      addB c (d * p) s) (s := ⟨h'.sa, h'.b⟩) ⟨by rw [← hA]; exact hd.sa, by rw [← hA]; exact hd.b⟩ (by
      intro c j t hc hj
      rw [hj, bind_ok, rd_of_getElem? (getElem?_getD (by omega)), bind_ok, rd_of_getElem? (getElem?_getD (by omega)), bind_ok, fdiv_ok hdt, bind_ok,
        rd_of_getElem? (getElem?_getD (by omega)), bind_ok])
  refine ⟨{ h' with sa := s.sa, b := s.b }, ?_, ⟨hA, by rw [st.data.sa]; exact ks.1, by rw [st.data.b]; exact ks.2, by rw [hx], hfl, by rw [hwk]⟩, hg, fun xr => ?_⟩
  · unfold assembleComprock
    rw [e, bind_ok]
    simp only [if_true]
    rw [es, bind_ok]
  · show Res h.A s xr = _
    rw [rs, ← hA, hres]
    show _ = balance G (F.getD noForces) mode trans h'.fgrav xr - _
    split <;> ring

/-- Assembly of the increment: the residual at an increment is the balance at the sum. -/
theorem assembleComprockIncrement_ok {G : GridTopo} {F : Option Forces} {trans gpress : List Rat} {h : Data} (st : Setting G F trans gpress h) (hF : F ≠ none) {mode : Nat → WellMode}
    (hm : Modes (F.getD noForces) mode) {porevol rockComp prev pv0 : List Rat} {dt : Rat} (hdt : dt ≠ 0) (h1 : G.nc ≤ porevol.length) (h2 : G.nc ≤ rockComp.length)
    (h3 : h.A.m ≤ prev.length) (h4 : G.nc ≤ pv0.length) :
    ∃ h', assembleComprockIncrement G F trans gpress porevol rockComp dt prev pv0 h = .ok (h', true) ∧ SameShape h h' ∧ GravOk G gpress h'.fgrav ∧
      ∀ x r, r < G.nc ∨ (∃ W, (F.getD noForces).wells = some W ∧ r < G.nc + W.nw) →
        Res h.A ⟨h'.sa, h'.b⟩ (x, r) = balance G (F.getD noForces) mode trans h'.fgrav (fun k => prev.getD k 0 + x k, r) -
          if r < G.nc then (porevol.getD r 0 - pv0.getD r 0) / dt + porevol.getD r 0 * rockComp.getD r 0 / dt * x r else 0 := by
  obtain ⟨h', sing, e, hA, hx, hwk, hd, hg, hfl, _, hres⟩ := assembleIncompressible_ok st.valid st.first st.fits st.forces hm st.sizes st.data
  obtain ⟨W, hW, hp⟩ := st.pattern
  have hnc := st.fits.nc
  obtain ⟨v, ev, lv, rv⟩ := multCsr_ok st.fits.mat (fun r p hr h1 h2 => hp.col_lt st.valid hW hr h1 h2) (sa := h'.sa) (u := prev) (v := h'.work) (by rw [← hA]; exact hd.sa) h3
    (by rw [hwk]; exact st.work)
  obtain ⟨s, es, ks, rs⟩ := rock_loop st.fits (fun c => porevol.getD c 0 * rockComp.getD c 0 / dt) (fun c => -((porevol.getD c 0 - pv0.getD c 0) / dt + v.getD c 0))
    (f := fun c s => do
      let j ← elmIndex c c h.A.ia h.A.ja
      let pv ← rd porevol c
      let pv0 ← rd pv0 c
      let dpvdt ← fdiv (pv - pv0) dt
      let rc ← rd rockComp c
      let d ← fdiv (pv * rc) dt
      let x ← rd v c
      let s ← addSa j d s
      addB c (-(dpvdt + x)) s) (s := ⟨h'.sa, h'.b⟩) ⟨by rw [← hA]; exact hd.sa, by rw [← hA]; exact hd.b⟩ (by
      intro c j t hc hj
      rw [hj, bind_ok, rd_of_getElem? (getElem?_getD (by omega)), bind_ok, rd_of_getElem? (getElem?_getD (by omega)), bind_ok, fdiv_ok hdt, bind_ok,
        rd_of_getElem? (getElem?_getD (by omega)), bind_ok, fdiv_ok hdt, bind_ok, rd_of_getElem? (getElem?_getD (by omega)), bind_ok])
  obtain ⟨s2, es2, ks2, rs2⟩ := incrementWells_ok st.fits hF lv ks
  refine ⟨{ h' with sa := s2.sa, b := s2.b, work := v }, ?_, ⟨hA, by rw [st.data.sa]; exact ks2.1, by rw [st.data.b]; exact ks2.2, by rw [hx], hfl, by rw [st.work]; exact lv⟩, hg,
    fun x r hr => ?_⟩
  · unfold assembleComprockIncrement
    rw [e, bind_ok]
    simp only [if_true]
    rw [ev, bind_ok, es, bind_ok, es2, bind_ok]
  · show Res h.A s2 (x, r) = _
    have hlin : Res h.A ⟨h'.sa, h'.b⟩ (fun k => prev.getD k 0 + x k, r) = Res h.A ⟨h'.sa, h'.b⟩ (x, r) - rowDot h.A h'.sa (fun k => prev.getD k 0) r := by
      unfold Res rowDot
      simp only [mul_add, Finset.sum_add_distrib]
      ring
    show _ = balance G (F.getD noForces) mode trans h'.fgrav _ - _
    rw [← hres, hA, hlin, rs2, rs]
    by_cases hc : r < G.nc
    · have e1 : (match (F.getD noForces).wells with
        | none => (0 : Rat)
        | some W => if G.nc ≤ r ∧ r < G.nc + W.nw then -(v.getD r 0) else 0) = 0 := by
        cases (F.getD noForces).wells with
        | none => rfl
        | some W => exact if_neg (by omega)
      simp only [if_pos hc, e1]
      rw [rv r (by omega)]
      ring
    · rcases hr with hr | ⟨W, hW, hr⟩
      · exact absurd hr hc
      · obtain ⟨hm', _⟩ := st.fits.getD.wells _ W rfl hW
        simp only [if_neg hc, hW]
        rw [if_pos ⟨by omega, hr⟩, rv r (by omega)]
        ring

theorem increment_null {G : GridTopo} {trans gpress : List Rat} {h : Data} (st : Setting G none trans gpress h) {mode : Nat → WellMode}
    (hm : Modes noForces mode) {porevol rockComp prev pv0 : List Rat} {dt : Rat} (hdt : dt ≠ 0) (h1 : G.nc ≤ porevol.length) (h2 : G.nc ≤ rockComp.length)
    (h3 : h.A.m ≤ prev.length) (h4 : G.nc ≤ pv0.length) :
    assembleComprockIncrement G none trans gpress porevol rockComp dt prev pv0 h = .error .ub := by
  obtain ⟨h', sing, e, hA, hx, hwk, hd, hg, hfl, _, hres⟩ := assembleIncompressible_ok st.valid st.first st.fits st.forces hm st.sizes st.data
  obtain ⟨W, hW, hp⟩ := st.pattern
  have hnc := st.fits.nc
  obtain ⟨v, ev, lv, rv⟩ := multCsr_ok st.fits.mat (fun r p hr h1 h2 => hp.col_lt st.valid hW hr h1 h2) (sa := h'.sa) (u := prev) (v := h'.work) (by rw [← hA]; exact hd.sa) h3
    (by rw [hwk]; exact st.work)
  obtain ⟨s, es, ks, rs⟩ := rock_loop st.fits (fun c => porevol.getD c 0 * rockComp.getD c 0 / dt) (fun c => -((porevol.getD c 0 - pv0.getD c 0) / dt + v.getD c 0))
    (f := fun c s => do
      let j ← elmIndex c c h.A.ia h.A.ja
      let pv ← rd porevol c
      let pv0 ← rd pv0 c
      let dpvdt ← fdiv (pv - pv0) dt
      let rc ← rd rockComp c
      let d ← fdiv (pv * rc) dt
      let x ← rd v c
      let s ← addSa j d s
      addB c (-(dpvdt + x)) s) (s := ⟨h'.sa, h'.b⟩) ⟨by rw [← hA]; exact hd.sa, by rw [← hA]; exact hd.b⟩ (by
      intro c j t hc hj
      rw [hj, bind_ok, rd_of_getElem? (getElem?_getD (by omega)), bind_ok, rd_of_getElem? (getElem?_getD (by omega)), bind_ok, fdiv_ok hdt, bind_ok,
        rd_of_getElem? (getElem?_getD (by omega)), bind_ok, fdiv_ok hdt, bind_ok, rd_of_getElem? (getElem?_getD (by omega)), bind_ok])
  unfold assembleComprockIncrement
  rw [e, bind_ok]
  simp only [if_true]
  rw [ev, bind_ok, es, bind_ok]
  rfl

end Opm.IfsTpfa
