import Verif.Proofs.ImplicitResidual
/-!
# Implicit transport: Newton's method
-/

namespace Opm.ImplicitTransport
open Opm

theorem foldl_norm (l : List Rat) : ∀ a : Rat, 0 ≤ a → a ≤ l.foldl (fun x y => max |x| |y|) a ∧ (∀ x ∈ l, |x| ≤ l.foldl (fun x y => max |x| |y|) a) ∧
    (l.foldl (fun x y => max |x| |y|) a = a ∨ ∃ x ∈ l, |x| = l.foldl (fun x y => max |x| |y|) a) := by
  induction l with
  | nil => intro a ha; exact ⟨le_refl _, by simp, .inl rfl⟩
  | cons y l ih =>
    intro a ha
    rw [List.foldl_cons, abs_of_nonneg ha]
    obtain ⟨h1, h2, h3⟩ := ih (max a |y|) (le_max_of_le_left ha)
    refine ⟨le_trans (le_max_left _ _) h1, ?_, ?_⟩
    · intro x hx
      rcases List.mem_cons.1 hx with rfl | hx
      · exact le_trans (le_max_right _ _) h1
      · exact h2 x hx
    · rcases h3 with h3 | ⟨x, hx, e⟩
      · rcases max_choice a |y| with e | e
        · exact .inl (h3.trans e)
        · exact .inr ⟨y, List.mem_cons_self, (h3.trans e).symm⟩
      · exact .inr ⟨x, List.mem_cons_of_mem _ hx, e⟩

theorem norm_nonneg' (l : List Rat) : 0 ≤ norm l := (foldl_norm l 0 (le_refl _)).1

theorem le_norm {l : List Rat} {c : Nat} (h : c < l.length) : |l.getD c 0| ≤ norm l := by
  refine (foldl_norm l 0 (le_refl _)).2.1 _ ?_
  rw [List.getD_eq_getElem?_getD, List.getElem?_eq_getElem h]
  exact List.getElem_mem h

theorem norm_attained {l : List Rat} (h : 0 < l.length) : ∃ c, c < l.length ∧ |l.getD c 0| = norm l := by
  rcases (foldl_norm l 0 (le_refl _)).2.2 with e | ⟨x, hx, e⟩
  · refine ⟨0, h, le_antisymm (le_norm h) ?_⟩
    have : norm l = 0 := e
    rw [this]; exact abs_nonneg _
  · obtain ⟨c, hc, rfl⟩ := List.getElem_of_mem hx
    refine ⟨c, hc, ?_⟩
    rw [List.getD_eq_getElem?_getD, List.getElem?_eq_getElem hc]
    exact e

section
variable {I : Input} (hI : InputOk I) {h : List Int} (hh : HalfOk I.G h) {st : State} (hst : StateOk I st) {source : List Rat} {src : Sources.TSrc} (dt : Rat)
  (hT : Sources.TRep 2 src (srcTerms source st.pressure I.G.nc))
include hI hh hst hT

/-- The residual belongs to the current iterate. -/
def Fresh (I : Input) (st : State) (source : List Rat) (dt : Rat) (Y : Sys) : Prop :=
  Imbalance I st source dt (fun c => Y.sol.getD c 0) (fun c => Y.res.getD c 0) ∧ (Near I st (fun c => Y.sol.getD c 0) ∨ ∀ c, c < I.G.nc → Y.sol.getD c 0 = guess I st c)

theorem searchStep_ok {normRes : Rat} {xOld dxOld : List Rat} (h1 : xOld.length = I.G.nc) (h2 : dxOld.length = I.G.nc) {q : Search} (hs : StoreOk I q.store) (hp : Pat I.G q.sys) :
    ∃ q' go, searchStep I h st src dt normRes xOld dxOld q = .ok (q', go) ∧ StoreOk I q'.store ∧ Pat I.G q'.sys ∧ q'.linIt = q.linIt + 1 ∧ (go = true → q.linIt ≤ I.ctrl.maxItLs) ∧
      ((Fresh I st source dt q'.sys ∧ (go = true → normRes ≤ norm q'.sys.res)) ∨ q'.sys.res = q.sys.res) := by
  have hl : (List.zipWith (fun x1 x2 : Rat => x1 + x2) (dxOld.map (· * (q.alpha / 2))) xOld).length = I.G.nc := by simp [h1, h2]
  obtain ⟨S', ok, e, k1, k2, k3⟩ := initIteration_ok hI hst.saturation hl hs
  have hp' : Pat I.G { q.sys with inc := dxOld.map (· * (q.alpha / 2)), sol := List.zipWith (fun x1 x2 : Rat => x1 + x2) (dxOld.map (· * (q.alpha / 2))) xOld } :=
    ⟨hp.wf, hp.sorted, hp.diag, hp.nbr, hp.sa, hp.res, by simp [h2], hl⟩
  unfold searchStep
  dsimp only
  rw [e, bind_ok]
  cases ok with
  | true =>
    obtain ⟨Y', e', g1, g2, g3, g4⟩ := assemble_ok hI hh hst ⟨k1, k3⟩ dt hT hp'
    simp only [if_true]
    rw [e', bind_ok]
    refine ⟨_, _, rfl, k1, g1, rfl, ?_, .inl ⟨⟨?_, .inl ?_⟩, ?_⟩⟩
    · intro hgo
      simp only [Bool.not_eq_true', decide_eq_false_iff_not, not_or, not_lt] at hgo
      exact hgo.2
    · rw [g3]; exact g4
    · rw [g3]; exact k2.1 rfl
    · intro hgo
      simp only [Bool.not_eq_true', decide_eq_false_iff_not, not_or, not_lt] at hgo
      exact hgo.1
  | false =>
    simp only [Bool.false_eq_true, if_false]
    rw [bind_ok]
    refine ⟨_, _, rfl, k1, hp', rfl, ?_, .inr rfl⟩
    intro hgo
    simp only [Bool.not_eq_true', decide_eq_false_iff_not, not_or, not_lt] at hgo
    exact hgo.2

theorem search_ok {normRes : Rat} {S : Store} {Y : Sys} (hs : StoreOk I S) (hp : Pat I.G Y) (hn : normRes = norm Y.res) :
    ∃ q, search I h st src dt normRes S Y = .ok q ∧ StoreOk I q.store ∧ Pat I.G q.sys ∧
      (normRes < I.ctrl.atol → q.sys = Y) ∧ (¬ normRes < I.ctrl.atol → Fresh I st source dt q.sys ∨ normRes ≤ norm q.sys.res) := by
  unfold search
  by_cases hlt : normRes < I.ctrl.atol
  · rw [if_pos hlt]
    exact ⟨_, rfl, hs, hp, fun _ => rfl, fun h => absurd hlt h⟩
  · rw [if_neg hlt]
    obtain ⟨q, e, k1, k2, k3⟩ := whileFuel_rank (f := searchStep I h st src dt normRes Y.sol Y.inc) (k := (I.ctrl.maxItLs + 2).toNat + 1)
      (fun m (q : Search) => m = (I.ctrl.maxItLs + 1 - q.linIt).toNat ∧ StoreOk I q.store ∧ Pat I.G q.sys ∧ normRes ≤ norm q.sys.res)
      (fun q => StoreOk I q.store ∧ Pat I.G q.sys ∧ (Fresh I st source dt q.sys ∨ normRes ≤ norm q.sys.res))
      (by
        rintro m q ⟨hm, h1, h2, h3⟩
        obtain ⟨q', go, e, g1, g2, g3, g4, g5⟩ := searchStep_ok hI hh hst dt hT (normRes := normRes) hp.sol hp.inc h1 h2
        refine ⟨q', go, e, fun hgo => ⟨(I.ctrl.maxItLs + 1 - q'.linIt).toNat, ?_, rfl, g1, g2, ?_⟩, fun hgo => ⟨g1, g2, ?_⟩⟩
        · have := g4 hgo
          omega
        · rcases g5 with ⟨_, g5⟩ | g5
          · exact g5 hgo
          · rw [g5]; exact h3
        · rcases g5 with ⟨g5, _⟩ | g5
          · exact .inl g5
          · exact .inr (by rw [g5]; exact h3))
      (m := (I.ctrl.maxItLs + 1 - 0).toNat) (s := { store := S, sys := Y, linIt := 0, alpha := 2 }) ⟨rfl, hs, hp, hn.le⟩ (by omega)
    exact ⟨q, e, k1, k2, fun h => absurd h hlt, fun _ => k3⟩

/-- What holds between Newton iterations. -/
structure Head (I : Input) (st : State) (source : List Rat) (dt res0 : Rat) (k : Iter) : Prop where
  store : StoreOk I k.store
  pat : Pat I.G k.sys
  normRes : k.rpt.normRes = norm k.sys.res
  rtol : I.ctrl.rtol * res0 ≤ k.rpt.normRes
  fresh : Fresh I st source dt k.sys ∨ I.ctrl.atol ≤ k.rpt.normRes

/-- What holds at the end. -/
structure Done (I : Input) (st : State) (source : List Rat) (dt res0 : Rat) (k : Iter) : Prop where
  store : StoreOk I k.store
  pat : Pat I.G k.sys
  normRes : k.rpt.normRes = norm k.sys.res
  fresh : Fresh I st source dt k.sys ∨ (I.ctrl.atol ≤ k.rpt.normRes ∧ I.ctrl.rtol * res0 ≤ k.rpt.normRes)

theorem newtonStep_ok {ls : Sys → List Rat} (hls : Answers ls I.G.nc) {res0 : Rat} {k : Iter} (hk : Head I st source dt res0 k) :
    ∃ k' go, newtonStep ls I h st src dt res0 k = .ok (k', go) ∧ Done I st source dt res0 k' ∧ k'.rpt.nit = k.rpt.nit + 1 ∧ (go = true → k'.rpt.nit ≠ I.ctrl.maxIt ∧ Head I st source dt res0 k') := by
  have hl := hls k.sys hk.pat.res
  have hp' : Pat I.G { k.sys with inc := (ls k.sys).map (fun x => -x) } :=
    ⟨hk.pat.wf, hk.pat.sorted, hk.pat.diag, hk.pat.nbr, hk.pat.sa, hk.pat.res, by simp [hl], hk.pat.sol⟩
  obtain ⟨q, e, g1, g2, g3, g4⟩ := search_ok hI hh hst dt hT (normRes := k.rpt.normRes) hk.store hp' hk.normRes
  have hfr : Fresh I st source dt q.sys ∨ (I.ctrl.atol ≤ norm q.sys.res ∧ I.ctrl.rtol * res0 ≤ norm q.sys.res) := by
    by_cases hlt : k.rpt.normRes < I.ctrl.atol
    · left
      rw [g3 hlt]
      rcases hk.fresh with h | h
      · exact h
      · exact absurd hlt (not_lt.2 h)
    · rcases g4 hlt with h | h
      · exact .inl h
      · exact .inr ⟨le_trans (not_lt.1 hlt) h, le_trans hk.rtol h⟩
  unfold newtonStep
  dsimp only
  rw [e, bind_ok]
  refine ⟨_, _, rfl, ⟨g1, g2, rfl, hfr⟩, rfl, fun hgo => ?_⟩
  simp only [Bool.not_eq_true', decide_eq_false_iff_not, not_or, not_lt] at hgo
  obtain ⟨a1, a2, a3, a4, a5⟩ := hgo
  exact ⟨a5, g1, g2, rfl, a2, .inr a1⟩

end

theorem initStep_ok {I : Input} {st : State} (hst : StateOk I st) {Y : Sys} (hY : Pat I.G Y) :
    ∃ Y', initStep I st.saturation Y = .ok Y' ∧ Pat I.G Y' ∧ ∀ c, c < I.G.nc → Y'.sol.getD c 0 = guess I st c := by
  unfold initStep guess
  have hl := hY.sol
  have hsl := hst.saturation
  rw [check_ok (decide_eq_true hl), bind_ok]
  cases I.guessPrevious with
  | true =>
    rw [if_pos rfl]
    refine ⟨_, rfl, ⟨hY.wf, hY.sorted, hY.diag, hY.nbr, hY.sa, hY.res, hY.inc, by simpa using hl⟩, fun c hc => ?_⟩
    dsimp only
    rw [if_pos rfl, List.getD_eq_getElem?_getD, List.getElem?_map]
    cases Y.sol[c]? <;> rfl
  | false =>
    rw [if_neg (by simp)]
    obtain ⟨x, e, h1, h2, _⟩ := IfsTpfa.loop_write (n := I.G.nc) (s := Y.sol) (f := fun c x => do
        let s ← rd st.saturation (2 * c)
        wr x c (1 / 2 - s)) (fun c => 1 / 2 - st.saturation.getD (2 * c) 0) (by omega) (by
          intro i t hi ht
          rw [rd_of_getElem? (getElem?_getD (by omega)), bind_ok])
    rw [e, bind_ok]
    refine ⟨_, rfl, ⟨hY.wf, hY.sorted, hY.diag, hY.nbr, hY.sa, hY.res, hY.inc, by rw [h1, hl]⟩, fun c hc => ?_⟩
    dsimp only
    rw [if_neg (by simp), h2 c hc]

theorem finishStep_ok {I : Input} (hI : InputOk I) {st : State} (hst : StateOk I st) {x : List Rat} (hx : x.length = I.G.nc) :
    ∃ sat, finishStep I x st.saturation = .ok sat ∧ sat.length = 2 * I.G.nc ∧
      ∀ c, c < I.G.nc → sat.getD (2 * c) 0 = newSat I st (fun c => x.getD c 0) c ∧ sat.getD (2 * c + 1) 0 = 1 - newSat I st (fun c => x.getD c 0) c := by
  obtain ⟨r1, r2⟩ := hI.ranges
  have hsl := hst.saturation
  obtain ⟨sat, e, h1, h2, _⟩ := loop_inv (n := I.G.nc) (s := st.saturation) (f := fun c sat => do
      let s ← rd sat (2 * c)
      let xc ← rd x c
      let lo ← rd I.P.smin (2 * c)
      let hi ← rd I.P.smax (2 * c)
      let sat ← wr sat (2 * c) (clamp lo hi (s + xc))
      wr sat (2 * c + 1) (1 - clamp lo hi (s + xc)))
    (fun k sat => sat.length = 2 * I.G.nc ∧
      (∀ c, c < k → sat.getD (2 * c) 0 = newSat I st (fun c => x.getD c 0) c ∧ sat.getD (2 * c + 1) 0 = 1 - newSat I st (fun c => x.getD c 0) c) ∧
      ∀ c, k ≤ c → sat.getD (2 * c) 0 = st.saturation.getD (2 * c) 0)
    ⟨hsl, by simp, fun _ _ => rfl⟩
    (by
      rintro c sat hc ⟨h1, h2, h3⟩
      rw [rd_of_getElem? (getElem?_getD (a := sat) (by omega)), bind_ok, rd_of_getElem? (getElem?_getD (a := x) (by omega)), bind_ok, rd_of_getElem? (getElem?_getD (a := I.P.smin) (by omega)),
        bind_ok, rd_of_getElem? (getElem?_getD (a := I.P.smax) (by omega)), bind_ok, wr_ok (by omega), bind_ok, wr_ok (by simp; omega), h3 c (le_refl _)]
      refine ⟨_, rfl, by simpa using h1, fun d hd => ?_, fun d hd => ?_⟩
      · have hl1 : 2 * c + 1 < (sat.set (2 * c) (clamp (I.P.smin.getD (2 * c) 0) (I.P.smax.getD (2 * c) 0) (st.saturation.getD (2 * c) 0 + x.getD c 0))).length := by simp; omega
        rcases Nat.lt_or_ge d c with hlt | hge
        · refine ⟨?_, ?_⟩
          · rw [IfsTpfa.getD_set hl1, if_neg (by omega), IfsTpfa.getD_set (by omega), if_neg (by omega)]
            exact (h2 d hlt).1
          · rw [IfsTpfa.getD_set hl1, if_neg (by omega), IfsTpfa.getD_set (by omega), if_neg (by omega)]
            exact (h2 d hlt).2
        · obtain rfl : d = c := by omega
          refine ⟨?_, ?_⟩
          · rw [IfsTpfa.getD_set hl1, if_neg (by omega), IfsTpfa.getD_set (by omega), if_pos rfl]
            rfl
          · rw [IfsTpfa.getD_set hl1, if_pos rfl]
            rfl
      · rw [IfsTpfa.getD_set (by simp; omega), IfsTpfa.getD_set (by omega), if_neg (by omega), if_neg (by omega)]
        exact h3 d (by omega))
  exact ⟨sat, e, h1, h2⟩

/-- The outcome of a call, in terms of the iterate `x`. -/
structure Outcome (I : Input) (st : State) (source : List Rat) (dt res0 : Rat) (k : Iter) (st' : State) : Prop where
  store : StoreOk I k.store
  pat : Pat I.G k.sys
  normRes : k.rpt.normRes = norm k.sys.res
  fresh : k.rpt.normRes < I.ctrl.atol ∨ k.rpt.normRes < I.ctrl.rtol * res0 → Fresh I st source dt k.sys
  flag : k.rpt.flag = flagOf I.ctrl res0 k.rpt
  pressure : st'.pressure = st.pressure
  faceflux : st'.faceflux = st.faceflux
  len : st'.saturation.length = 2 * I.G.nc
  sat : ∀ c, c < I.G.nc → st'.saturation.getD (2 * c) 0 = newSat I st (fun c => k.sys.sol.getD c 0) c ∧ st'.saturation.getD (2 * c + 1) 0 = 1 - newSat I st (fun c => k.sys.sol.getD c 0) c

theorem newton_ok {I : Input} (hI : InputOk I) (hC : ControlOk I.ctrl) {h : List Int} (hh : HalfOk I.G h) {st : State} (hst : StateOk I st) {source : List Rat} {src : Sources.TSrc} (dt : Rat)
    (hT : Sources.TRep 2 src (srcTerms source st.pressure I.G.nc)) {ls : Sys → List Rat} (hls : Answers ls I.G.nc) {fuel : Nat} (hf : I.ctrl.maxIt.toNat ≤ fuel) {S : Store} (hS : StoreOk I S)
    (Y : Sys) :
    ∃ k st' r0, newton fuel ls I h S Y src dt st = .ok (k, st') ∧ r0.length = I.G.nc ∧ (∃ x0 : Nat → Rat, (∀ c, c < I.G.nc → x0 c = guess I st c) ∧ Imbalance I st source dt x0 (fun c => r0.getD c 0)) ∧
      Outcome I st source dt (norm r0) k st' := by
  obtain ⟨Y1, e1, p1⟩ := createSystem_ok hI.valid hI.first Y
  obtain ⟨Y2, e2, p2, g2⟩ := initStep_ok hst p1
  obtain ⟨S', ok, e3, s3, _, c3⟩ := initIteration_ok hI hst.saturation p2.sol hS
  obtain ⟨Y4, e4, p4, i4, l4, b4⟩ := assemble_ok hI hh hst ⟨s3, c3⟩ dt hT p2
  have hit := hC.iterations
  have hpos : 0 ≤ norm Y4.res := norm_nonneg' _
  have hr : I.ctrl.rtol * norm Y4.res ≤ norm Y4.res := by
    have := mul_le_mul_of_nonneg_right hC.rtol hpos
    linarith
  have hb4 : Imbalance I st source dt (fun c => Y4.sol.getD c 0) (fun c => Y4.res.getD c 0) := by rw [l4]; exact b4
  obtain ⟨k, e5, hk⟩ := whileFuel_rank (f := newtonStep ls I h st src dt (norm Y4.res)) (k := fuel)
    (fun m (k : Iter) => m = (I.ctrl.maxIt - 1 - k.rpt.nit).toNat ∧ k.rpt.nit < I.ctrl.maxIt ∧ Head I st source dt (norm Y4.res) k)
    (fun k => Done I st source dt (norm Y4.res) k)
    (by
      rintro m k ⟨hm, hn, hk⟩
      obtain ⟨k', go, e, q1, q2, q3⟩ := newtonStep_ok hI hh hst dt hT hls hk
      refine ⟨k', go, e, fun hgo => ⟨(I.ctrl.maxIt - 1 - k'.rpt.nit).toNat, ?_, rfl, ?_, (q3 hgo).2⟩, fun _ => q1⟩
      · have := (q3 hgo).1
        omega
      · have := (q3 hgo).1
        omega)
    (m := (I.ctrl.maxIt - 1 - 0).toNat) (s := { store := S', sys := Y4, rpt := { nit := 0, flag := 0, normRes := norm Y4.res, normDx := -1 } })
    ⟨rfl, hit, s3, p4, rfl, hr, .inl ⟨hb4, .inr (by rw [l4]; exact g2)⟩⟩ (by omega)
  obtain ⟨sat, e6, s6, s7⟩ := finishStep_ok hI hst hk.pat.sol
  unfold newton
  rw [e1, bind_ok, e2, bind_ok, e3, bind_ok, e4, bind_ok, e5, bind_ok, e6, bind_ok]
  refine ⟨_, _, Y4.res, rfl, p4.res, ⟨_, g2, b4⟩, ?_⟩
  · refine ⟨hk.store, hk.pat, hk.normRes, ?_, rfl, rfl, rfl, s6, s7⟩
    intro hlt
    rcases hk.fresh with h | ⟨h1, h2⟩
    · exact h
    · rcases hlt with h | h
      · exact absurd h (not_lt.2 h1)
      · exact absurd h (not_lt.2 h2)

theorem solve_ok (J : Sources.Junk) {I : Input} (hI : InputOk I) (hC : ControlOk I.ctrl) {ls : Sys → List Rat} (hls : Answers ls I.G.nc) {S : Solver} (hS : Ready I S) {st : State}
    (hst : StateOk I st) {pv source : List Rat} (hs : I.G.nc ≤ source.length) (hpv : pv[0]? = some (I.porevol.getD 0 0)) (dt : Rat) {fuel : Nat} (hf : I.ctrl.maxIt.toNat ≤ fuel) :
    ∃ k st' r0 src, solve J fuel ls I pv source dt S st = .ok ({ S with store := k.store, sys := k.sys, tsrc := src }, st', k.rpt) ∧ r0.length = I.G.nc ∧
      (∃ x0 : Nat → Rat, (∀ c, c < I.G.nc → x0 c = guess I st c) ∧ Imbalance I st source dt x0 (fun c => r0.getD c 0)) ∧ Outcome I st source dt (norm r0) k st' ∧
      Ready I { S with store := k.store, sys := k.sys, tsrc := src } := by
  obtain ⟨ts, hts⟩ := hS.src
  obtain ⟨src, e1, h1⟩ := addSource_ok J hs hst.pressure hts
  obtain ⟨k, st', r0, e2, h2, h3, h4⟩ := newton_ok hI hC hS.half hst dt h1 hls hf hS.store S.sys
  refine ⟨k, st', r0, src, ?_, h2, h3, h4, hS.half, h4.store, ⟨_, h1⟩, hS.pv⟩
  unfold solve
  rw [rd_of_getElem? hpv, bind_ok, if_neg (by rw [hS.pv]; simp), e1, bind_ok, e2, bind_ok]

theorem used_ready {J : Sources.Junk} {I : Input} (hI : InputOk I) (hC : ControlOk I.ctrl) {ls : Sys → List Rat} (hls : Answers ls I.G.nc) {S : Solver} (hS : Used J ls I S) : Ready I S := by
  induction hS with
  | made h =>
    obtain ⟨S, e, hr⟩ := make_ok J hI
    rw [e] at h
    cases h
    exact hr
  | called h hf hst hs hc ih =>
    rename_i S S' fuel pv source dt st st' rpt
    have hpv : pv[0]? = some (I.porevol.getD 0 0) := by
      unfold solve at hc
      rw [bind_eq_ok] at hc
      obtain ⟨v, hv, hc⟩ := hc
      by_cases hne : v = S.pv0
      · rw [rd_eq_ok.1 hv, hne, ih.pv]
      · rw [if_pos hne] at hc
        cases hc
    obtain ⟨k, st'', r0, src, e, _, _, _, hr⟩ := solve_ok J hI hC hls ih hst hs hpv dt hf
    rw [e] at hc
    cases hc
    exact hr

end Opm.ImplicitTransport
