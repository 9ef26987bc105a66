import Verif.Spec.IncompTpfa
import Verif.Props.IfsTpfa
import Verif.Props.Mimetic
import Verif.Props.Mobility
import Verif.Props.MiscUtil
import Verif.Props.WellRates
import Mathlib.Tactic.Linarith
import Mathlib.Tactic.Ring
/-!
# The pressure solver for incompressible fluids: helper lemmas
-/

namespace Opm.IncompTpfa
open Opm Opm.IfsTpfa Opm.Rock

/-- Number of half faces. -/
abbrev Input.nhf (I : Input) : Nat := I.G.cellFacepos.getD I.G.nc 0

/-- The members between two calls. -/
structure Ready (I : Input) (W0 : Option Wells.W) (S : Solver) : Prop where
  htLen : S.htrans.length = I.nhf
  ht : ∀ c f i, I.G.HalfFace c f i → S.htrans.getD i 0 = halfTrans I c f
  gp : ∀ g, I.gravity = some g → I.nhf ≤ S.gpress.length ∧ ∀ c f i, I.G.HalfFace c f i → S.gpress.getD i 0 = dotN I.geo.d (fun j => g.getD j 0) (I.geo.dist c f)
  gpoLen : S.gpressOmega.length = I.nhf
  gpo : I.gravity = none → ∀ i, S.gpressOmega.getD i 0 = 0
  transLen : S.trans.length = I.G.nf
  data : ∃ junk jd hd, construct junk jd I.G W0 = .ok hd ∧ SameShape hd S.h
  rock : I.rock ≠ none → S.rockComp.length = I.G.nc
  press : S.pressures.length = I.G.nc + numWells W0
  wdp : ∀ W, W0 = some W → S.wdp = [] ∨ numPerf W ≤ S.wdp.length

theorem half_exists {I : Input} (hI : InputOk I) {f a : Nat} (h : (∃ b : Int, I.G.Sides f a b) ∨ ∃ b : Int, I.G.Sides f b a) : ∃ i, I.G.HalfFace a f i := by
  have key : I.G.HasFace a f := by
    rcases h with ⟨b, h⟩ | ⟨b, h⟩
    · exact (hI.valid.agree a f _ _ h).2 (.inl rfl)
    · exact (hI.valid.agree a f _ _ h).2 (.inr rfl)
  obtain ⟨x, y, e, h1, h2, h3, h4, h5⟩ := key
  exact ⟨e, x, y, h1, h2, h3, h4, h5⟩

theorem rowPos {I : Input} (hI : InputOk I) : RowPos I.G.nc I.G.cellFacepos := hI.valid.rowPos hI.first

theorem dist_pos {I : Input} (hI : InputOk I) {c f i : Nat} (h : I.G.HalfFace c f i) : 0 < dotN I.geo.d (I.geo.dist c f) (I.geo.dist c f) := by
  have h0 : 0 ≤ dotN I.geo.d (I.geo.dist c f) (I.geo.dist c f) := Finset.sum_nonneg fun j _ => mul_self_nonneg _
  refine lt_of_le_of_ne h0 fun e => hI.conducts c f i h ?_
  have hz := (Finset.sum_eq_zero_iff_of_nonneg (s := Finset.range I.geo.d) (f := fun j => I.geo.dist c f j * I.geo.dist c f j) fun j _ => mul_self_nonneg _).1 e.symm
  refine Finset.sum_eq_zero fun j hj => ?_
  rw [mul_self_eq_zero.1 (hz j hj), zero_mul]

theorem halfTrans_pos {I : Input} (hI : InputOk I) {c f i : Nat} (h : I.G.HalfFace c f i) : 0 < halfTrans I c f :=
  div_pos (abs_pos.2 (hI.conducts c f i h)) (dist_pos hI h)

theorem half_at {I : Input} (hI : InputOk I) {i : Nat} (hi : i < I.nhf) : ∃ c f, I.G.HalfFace c f i := by
  obtain ⟨c, hc, h1, h2⟩ := (rowPos hI).exists_row hi
  obtain ⟨f, hf, _⟩ := hI.valid.face_at hc h2
  exact ⟨c, f, (Trans.halfFace_iff hI.valid).2 ⟨hc, h1, h2, hf⟩⟩

theorem gravityTerms_ok {I : Input} (hI : InputOk I) : ∃ gp, gravityTerms I I.nhf = .ok gp ∧
    ∀ g, I.gravity = some g → I.nhf ≤ gp.length ∧ ∀ c f i, I.G.HalfFace c f i → gp.getD i 0 = dotN I.geo.d (fun j => g.getD j 0) (I.geo.dist c f) := by
  unfold gravityTerms
  cases hg : I.gravity with
  | none => exact ⟨[], rfl, fun g h => by cases h⟩
  | some g =>
    dsimp only
    have hs := hI.sizes
    obtain ⟨gp, e, h1, h2⟩ := Mimetic.gravity_terms (K := Rat) (nc := I.G.nc) (nf := I.G.nf) (d := I.geo.d) (mx := I.nhf) (pconn := I.G.cellFacepos) (conn := I.G.cellFaces)
      (g := { fneighbour := List.replicate (2 * I.G.nf) 0, fcentroid := I.geo.faceCentroids, fnormal := List.replicate (I.G.nf * I.geo.d) 0, farea := List.replicate I.G.nf 0,
              ccentroid := I.geo.cellCentroids, cvol := List.replicate I.G.nc 1, perm := List.replicate (I.G.nc * I.geo.d * I.geo.d) 0 })
      { pos := rowPos hI
        mx := fun c hc => by
          have h := (rowPos hI).mono' (show c + 1 ≤ I.G.nc from hc) (le_refl _)
          show I.G.cellFacepos.getD (c + 1) 0 - I.G.cellFacepos.getD c 0 ≤ I.G.cellFacepos.getD I.G.nc 0
          omega
        conn := fun i hi => by
          obtain ⟨c, hc, h1, h2⟩ := (rowPos hI).exists_row hi
          exact hI.valid.face_at hc h2
        dim := hs.dim
        dimNe := by exact_mod_cast hI.dim
        fneighbour := by simp
        fcentroid := hs.fcent
        fnormal := by simp
        farea := by simp
        ccentroid := hs.ccent
        cvol := by simp
        perm := by simp
        vol := fun c hc => by simp [List.getD_eq_getElem?_getD, hc] }
      (grav := g) (gp := List.replicate I.nhf 0) (hI.gravity g hg) (by simp)
    refine ⟨gp, e, fun g' hg' => ?_⟩
    cases hg'
    refine ⟨by rw [h1]; simp, fun c f i h => ?_⟩
    obtain ⟨hc, g1, g2, g3⟩ := (Trans.halfFace_iff hI.valid).1 h
    have := h2 c (i - I.G.cellFacepos.getD c 0) hc (by unfold Hybsys.deg; omega)
    rw [show I.G.cellFacepos.getD c 0 + (i - I.G.cellFacepos.getD c 0) = i by omega] at this
    rw [this]
    unfold dotN Mimetic.arm Trans.Geo.dist Hybsys.face
    refine Finset.sum_congr rfl fun j _ => ?_
    rw [show I.G.cellFacepos.getD c 0 + (i - I.G.cellFacepos.getD c 0) = i by omega, List.getD_eq_getElem?_getD (l := I.G.cellFaces), g3]
    simp only [Option.getD_some, Nat.add_comm j]

theorem make_ok (junk : Nat → Nat) (jd : Nat → Rat) {I : Input} (hI : InputOk I) {W : Option Wells.W} (hW : ∀ W', W = some W' → WellsFit I W') :
    ∃ S, make junk jd I W = .ok S ∧ Ready I W S ∧ S.wdp = [] := by
  unfold make
  have hp := rowPos hI
  rw [rd_of_getElem? (hp.get (le_refl _)), bind_ok]
  have h1 : checkPhases I W = .ok () := by
    unfold checkPhases
    cases W with
    | none => rfl
    | some W' => exact if_neg (by simp [(hW W' rfl).phases])
  rw [h1, bind_ok]
  obtain ⟨ht, e, l1, l2⟩ := Trans.htrans_formula I.G I.geo I.perm (List.replicate I.nhf 0) hI.valid hI.first hI.sizes (by simp) (fun c f i h => dist_pos hI h)
  rw [e, bind_ok]
  obtain ⟨gp, e2, l3⟩ := gravityTerms_ok hI
  rw [e2, bind_ok]
  obtain ⟨h, e3, l4, _⟩ := construct_succeeds junk jd hI.valid hI.nonempty (W := W) (fun W' h => (hW W' h).ok)
  rw [e3, bind_ok]
  refine ⟨_, rfl, ?_, rfl⟩
  exact {
    htLen := by rw [l1]; simp
    ht := fun c f i h => by rw [List.getD_eq_getElem?_getD, l2 c f i h]; rfl
    gp := l3
    gpoLen := by simp
    gpo := fun _ i => by simp [List.getD_eq_getElem?_getD, List.getElem?_replicate]; split <;> rfl
    transLen := by simp
    data := ⟨junk, jd, h, e3, ⟨rfl, rfl, rfl, rfl, rfl, rfl⟩⟩
    rock := fun hr => by
      have : I.rock.isSome = true := by
        cases h : I.rock with
        | none => exact absurd h hr
        | some _ => rfl
      simp [this]
    press := by simp
    wdp := fun _ _ => .inl rfl }

/-- What one call needs: coefficients at the saturations `s`. -/
structure Prepared (I : Input) (s : List Rat) (S : Solver) : Prop where
  totLen : S.totmob.length = I.G.nc
  tot : ∀ c, c < I.G.nc → S.totmob.getD c 0 = lam I s c
  transLen : S.trans.length = I.G.nf
  trans : ∀ f, f < I.G.nf → IsFaceTrans I s f (S.trans.getD f 0) ∧ 0 < S.trans.getD f 0
  gpoLen : S.gpressOmega.length = I.nhf
  gpo : ∀ c f i, I.G.HalfFace c f i → S.gpressOmega.getD i 0 = head I s c f

theorem cells_length (I : Input) : I.cells.length = I.G.nc := by simp [Input.cells]

theorem totalMobility_ok {I : Input} (hI : InputOk I) {s : List Rat} (hs : s.length = I.G.nc * I.fluid.np) :
    ∃ t, MiscUtil.computeTotalMobility I.fluid I.cells s = .ok t ∧ t.length = I.G.nc ∧ ∀ c, c < I.G.nc → t.getD c 0 = lam I s c := by
  obtain ⟨t, e, h1, h2⟩ := MiscUtil.total_mobility_eq hI.fluid (cells := I.cells) (s := s) (by rw [cells_length]; exact hs)
  rw [cells_length] at h1 h2
  exact ⟨t, e, h1, h2⟩

theorem mobilityPart_ok {I : Input} (hI : InputOk I) {W0 : Option Wells.W} {s : List Rat} (hs : s.length = I.G.nc * I.fluid.np) (hl : ∀ c, c < I.G.nc → 0 < lam I s c)
    {S : Solver} (hS : Ready I W0 S) : ∃ t o g, mobilityPart I s S = .ok { S with totmob := t, omega := o, gpressOmega := g } ∧
      t.length = I.G.nc ∧ (∀ c, c < I.G.nc → t.getD c 0 = lam I s c) ∧ g.length = I.nhf ∧ (I.gravity = none → ∀ i, g.getD i 0 = 0) ∧
      ∀ c f i, I.G.HalfFace c f i → g.getD i 0 = head I s c f := by
  unfold mobilityPart
  cases hg : I.gravity with
  | none =>
    obtain ⟨t, e, h1, h2⟩ := totalMobility_ok hI hs
    refine ⟨t, S.omega, S.gpressOmega, ?_, h1, h2, hS.gpoLen, fun _ => hS.gpo hg, fun c f i h => ?_⟩
    · dsimp only
      rw [e]
      rfl
    · rw [hS.gpo hg, head, hg]
  | some g =>
    obtain ⟨t, o, e, h1, h2, h3, _⟩ := MiscUtil.omega_eq hI.fluid (cells := I.cells) (s := s) (by rw [cells_length]; exact hs)
      (fun i hi => ne_of_gt (hl i (by rwa [cells_length] at hi)))
    rw [cells_length] at h1 h2 h3
    obtain ⟨l1, l2⟩ := hS.gp g hg
    obtain ⟨gp, e', h4, h5⟩ := Mimetic.density_update (rowPos hI) (omega := o) (g0 := S.gpress) (gp := S.gpressOmega) h2.ge l1 hS.gpoLen.ge
    refine ⟨t, o, gp, ?_, h1, fun c hc => (h3 c hc).1, by rw [h4, hS.gpoLen], fun h => (by cases h), fun c f i h => ?_⟩
    · dsimp only
      rw [e, bind_ok, e', bind_ok]
    · obtain ⟨hc, g1, g2, g3⟩ := (Trans.halfFace_iff hI.valid).1 h
      have := h5 c (i - I.G.cellFacepos.getD c 0) hc (by unfold Hybsys.deg; omega)
      rw [show I.G.cellFacepos.getD c 0 + (i - I.G.cellFacepos.getD c 0) = i by omega] at this
      rw [this, (h3 c hc).2, l2 c f i h, head, hg]
      rfl

/-- The offsets of the wells after a call that found `old`. -/
def OffsetsAre (I : Input) (W : Option Wells.W) (s old new : List Rat) : Prop :=
  match W with
  | none => new = old
  | some W => ∃ l, new = old ++ l ∧ l.length = numPerf W ∧ ∀ w i c, w < W.nw → IsPerf W w i c → l.getD i 0 = offset I W s w c

theorem wellOffsets_ok {I : Input} (hI : InputOk I) {W : Option Wells.W} (hW : ∀ W', W = some W' → WellsFit I W') {s : List Rat} (hs : s.length = I.G.nc * I.fluid.np) (old : List Rat) :
    ∃ new, wellOffsets I W s old = .ok new ∧ OffsetsAre I W s old new := by
  unfold wellOffsets OffsetsAre
  cases W with
  | none => exact ⟨old, rfl, rfl⟩
  | some W =>
    have hf := hW W rfl
    have hcc : 3 * I.G.nc ≤ I.geo.cellCentroids.length := by have := hI.sizes.ccent; rw [hf.space] at this; omega
    have hgv : ∃ v, downwards I = .ok v ∧ v = (match I.gravity with | none => 0 | some g => g.getD 2 0) := by
      unfold downwards
      cases hg : I.gravity with
      | none => exact ⟨0, rfl, rfl⟩
      | some g =>
        have := hI.gravity g hg
        rw [hf.space] at this
        exact ⟨_, MiscUtil.rdD (by omega), rfl⟩
    obtain ⟨v, e, hv⟩ := hgv
    dsimp only
    rw [e, bind_ok]
    obtain ⟨new, e', h1, h2⟩ := MiscUtil.wdp_eq (nc := I.G.nc) (W := W) ⟨hf.ok.pos, hf.ok.cell, hf.depth⟩ hcc I.fluid.np v true (s := s) (dens := I.fluid.density)
      (by rw [hs, Nat.mul_comm]; rfl) hf.perfs hI.fluid.dens.ge old
    refine ⟨_, e', new, rfl, h1, fun w i c hw hp => ?_⟩
    rw [h2 w i c hw hp, hv]
    rfl

theorem trans_ok {I : Input} (hI : InputOk I) {W0 : Option Wells.W} {s : List Rat} (hl : ∀ c, c < I.G.nc → 0 < lam I s c) {S : Solver} (hS : Ready I W0 S) {t : List Rat}
    (h1 : t.length = I.G.nc) (h2 : ∀ c, c < I.G.nc → t.getD c 0 = lam I s c) :
    ∃ tr, Trans.effTransCompute I.G t S.htrans S.trans = .ok tr ∧ tr.length = I.G.nf ∧ ∀ f, f < I.G.nf → IsFaceTrans I s f (tr.getD f 0) ∧ 0 < tr.getD f 0 := by
  obtain ⟨tr, e, h3, h4⟩ := Trans.eff_trans_is_harmonic I.G t S.htrans S.trans hI.valid hI.first hI.sided hS.htLen.ge (by
      intro x hx
      obtain ⟨i, hi, rfl⟩ := List.mem_iff_getElem.1 hx
      obtain ⟨c, f, h⟩ := half_at hI (show i < I.nhf by rw [← hS.htLen]; exact hi)
      have := hS.ht c f i h
      rw [List.getD_eq_getElem?_getD, List.getElem?_eq_getElem hi] at this
      rw [show S.htrans[i] = halfTrans I c f from this]
      exact halfTrans_pos hI h) h1.ge (by
      intro x hx
      obtain ⟨c, hc, rfl⟩ := List.mem_iff_getElem.1 hx
      have hc' : c < I.G.nc := by rw [← h1]; exact hc
      have := h2 c hc'
      rw [List.getD_eq_getElem?_getD, List.getElem?_eq_getElem hc] at this
      rw [show t[c] = lam I s c from this]
      exact hl c hc') hS.transLen.ge
  refine ⟨tr, e, by rw [h3, hS.transLen], fun f hf => ?_⟩
  obtain ⟨v, g1, g2, g3, g4⟩ := h4 f hf
  have hv : tr.getD f 0 = v := by rw [List.getD_eq_getElem?_getD, g1]; rfl
  rw [hv]
  refine ⟨⟨fun a b hs => ?_, fun c hs => ?_⟩, g2⟩
  · obtain ⟨i1, k1⟩ := half_exists hI (.inl ⟨_, hs⟩)
    obtain ⟨i2, k2⟩ := half_exists hI (.inr ⟨_, hs⟩)
    have ha : a < I.G.nc := ((Trans.halfFace_iff hI.valid).1 k1).1
    have hb : b < I.G.nc := ((Trans.halfFace_iff hI.valid).1 k2).1
    rw [g3 a b i1 i2 hs k1 k2]
    dsimp only
    rw [h2 a ha, h2 b hb, hS.ht a f i1 k1, hS.ht b f i2 k2]
  · obtain ⟨i, k⟩ := half_exists hI (hs.imp (fun h => ⟨_, h⟩) (fun h => ⟨_, h⟩))
    have hc : c < I.G.nc := ((Trans.halfFace_iff hI.valid).1 k).1
    rw [g4 c i hs k]
    dsimp only
    rw [h2 c hc, hS.ht c f i k]

/-- The pore volumes at the start of the step. -/
def Initial (I : Input) (m : Rat → Rat) (p pv : List Rat) : Prop := pv.length = I.G.nc ∧ ∀ c, c < I.G.nc → pv.getD c 0 = I.porosity.getD c 0 * I.vol.getD c 0 * m (p.getD c 0)

theorem perSolve_ok {I : Input} (hI : InputOk I) {W W0 : Option Wells.W} (hW : ∀ W', W = some W' → WellsFit I W') (hsame : SamePerfs W W0) {st : State} (hst : StateOk I W st)
    (hr : ∀ r, I.rock = some r → r.isActive = true → ∃ m k, RockOk I r m k) {S : Solver} (hS : Ready I W0 S) :
    ∃ S', perSolve I W st S = .ok S' ∧ Ready I W0 S' ∧ Prepared I st.saturation S' ∧ OffsetsAre I W st.saturation S.wdp S'.wdp ∧ S'.h = S.h ∧
      ∀ r m k, I.rock = some r → r.isActive = true → RockOk I r m k → Initial I m st.pressure S'.initialPv := by
  unfold perSolve
  obtain ⟨wdp, e1, ho⟩ := wellOffsets_ok hI hW hst.saturation S.wdp
  rw [e1, bind_ok]
  have hwdp : ∀ W', W0 = some W' → wdp = [] ∨ numPerf W' ≤ wdp.length := by
    intro W' hW'
    cases W with
    | none => subst hW'; exact absurd hsame (by simp [SamePerfs])
    | some V =>
      subst hW'
      obtain ⟨l, h1, h2, _⟩ := ho
      refine .inr ?_
      have : numPerf W' = numPerf V := by unfold numPerf; rw [hsame.1, hsame.2.1]
      rw [this, h1, List.length_append, h2]
      omega
  have hS1 : Ready I W0 { S with wdp := wdp } := ⟨hS.htLen, hS.ht, hS.gp, hS.gpoLen, hS.gpo, hS.transLen, hS.data, hS.rock, hS.press, hwdp⟩
  obtain ⟨t, o, g, e2, h1, h2, h3, h4, h5⟩ := mobilityPart_ok hI hst.saturation hst.flows hS1
  rw [e2, bind_ok]
  have hS2 : Ready I W0 { S with wdp := wdp, totmob := t, omega := o, gpressOmega := g } :=
    ⟨hS.htLen, hS.ht, hS.gp, h3, h4, hS.transLen, hS.data, hS.rock, hS.press, hwdp⟩
  obtain ⟨tr, e3, h6, h7⟩ := trans_ok hI hst.flows hS2 h1 h2
  dsimp only at e3 ⊢
  rw [e3, bind_ok]
  have key : ∀ pv : List Rat, Ready I W0 { S with wdp := wdp, totmob := t, omega := o, gpressOmega := g, trans := tr, initialPv := pv } ∧
      Prepared I st.saturation { S with wdp := wdp, totmob := t, omega := o, gpressOmega := g, trans := tr, initialPv := pv } := fun pv =>
    ⟨⟨hS.htLen, hS.ht, hS.gp, h3, h4, h6, hS.data, hS.rock, hS.press, hwdp⟩, ⟨h1, h2, h6, h7, h3, h5⟩⟩
  unfold initialPart
  cases hk : I.rock with
  | none => exact ⟨_, rfl, (key _).1, (key _).2, ho, rfl, fun r m k h => by cases h⟩
  | some r =>
    dsimp only
    cases ha : r.isActive with
    | false =>
      refine ⟨_, rfl, (key _).1, (key _).2, ho, rfl, fun r' m k h h' => ?_⟩
      cases h
      rw [ha] at h'
      cases h'
    | true =>
      obtain ⟨m, k, hm⟩ := hr r hk ha
      obtain ⟨pv, e4, l1, l2⟩ := MiscUtil.porevolume_comp_eq I.G.nc S.initialPv (pressure := st.pressure) hm.mult hm.vol hm.porosity hst.pressure.ge
      simp only [if_true]
      rw [e4, bind_ok]
      refine ⟨_, rfl, (key pv).1, (key pv).2, ho, rfl, fun r' m' k' h h' hm' => ⟨l1, fun c hc => ?_⟩⟩
      cases h
      have : m = m' := by
        funext p
        have := hm.mult p
        rw [hm'.mult p] at this
        exact (Except.ok.inj this).symm
      rw [← this]
      exact l2 c hc

/-- The offsets held between calls. -/
def Offs (I : Input) (W0 : Option Wells.W) (first : Option (Option Wells.W × List Rat)) (wdp : List Rat) : Prop :=
  match first with
  | none => wdp = []
  | some (W1, s1) => SamePerfs W1 W0 ∧ ∀ W, W1 = some W → ∃ l rest, wdp = l ++ rest ∧ l.length = numPerf W ∧ ∀ w i c, w < W.nw → IsPerf W w i c → l.getD i 0 = offset I W s1 w c

theorem isPerf_same {W V : Wells.W} (h : W.connpos = V.connpos ∧ W.cells = V.cells) {w i c : Nat} : IsPerf W w i c ↔ IsPerf V w i c := by
  unfold IsPerf
  rw [h.1, h.2]

theorem getD_append_left {l r : List Rat} {i : Nat} (h : i < l.length) : (l ++ r).getD i 0 = l.getD i 0 := by
  rw [List.getD_eq_getElem?_getD, List.getD_eq_getElem?_getD, List.getElem?_append_left h]

theorem perf_lt {I : Input} {W : Wells.W} (hW : WellsFit I W) {w i c : Nat} (hw : w < W.nw) (h : IsPerf W w i c) : i < numPerf W := by
  obtain ⟨a, b, h1, h2, h3, h4, h5⟩ := h
  refine hW.ok.pos.lt_total hw ?_
  rw [getD_of_getElem? h2]
  exact h4

/-- Offsets after a call, in terms of those before. -/
theorem offs_step {I : Input} {W W0 : Option Wells.W} (hW : ∀ W', W = some W' → WellsFit I W') (hsame : SamePerfs W W0) {first : Option (Option Wells.W × List Rat)} {s old new : List Rat}
    (ho : Offs I W0 first old) (hn : OffsetsAre I W s old new) :
    Offs I W0 (some (first.getD (W, s))) new ∧
      ∀ W', W = some W' → numPerf W' ≤ new.length ∧ ∀ w i c, w < W'.nw → IsPerf W' w i c → new.getD i 0 = usedOffset I first W' s w c := by
  cases W with
  | none =>
    have hn : new = old := hn
    subst hn
    refine ⟨?_, fun W' h => by cases h⟩
    cases first with
    | none => exact ⟨hsame, fun W h => by cases h⟩
    | some f => exact ho
  | some W =>
    obtain ⟨l, h1, h2, h3⟩ := hn
    have hf := hW W rfl
    cases first with
    | none =>
      have ho : old = [] := ho
      subst ho
      simp only [List.nil_append] at h1
      subst h1
      refine ⟨⟨hsame, fun W' e => ?_⟩, fun W' e => ?_⟩
      · cases e
        exact ⟨new, [], by simp, h2, h3⟩
      · cases e
        exact ⟨h2.ge, fun w i c hw hp => h3 w i c hw hp⟩
    | some f =>
      obtain ⟨W1, s1⟩ := f
      obtain ⟨k1, k2⟩ := ho
      refine ⟨⟨k1, fun W' e => ?_⟩, fun W' e => ?_⟩
      · obtain ⟨l', rest, g1, g2, g3⟩ := k2 W' e
        exact ⟨l', rest ++ l, by rw [h1, g1, List.append_assoc], g2, g3⟩
      · cases e
        cases W0 with
        | none => exact absurd hsame (by simp [SamePerfs])
        | some V0 =>
          cases W1 with
          | none => exact absurd k1 (by simp [SamePerfs])
          | some V1 =>
            obtain ⟨l', rest, g1, g2, g3⟩ := k2 V1 rfl
            have e1 : V1.nw = W.nw := k1.1.trans hsame.1.symm
            have e2 : V1.connpos = W.connpos := k1.2.1.trans hsame.2.1.symm
            have e3 : V1.cells = W.cells := k1.2.2.trans hsame.2.2.symm
            have e4 : numPerf V1 = numPerf W := by unfold numPerf; rw [e1, e2]
            refine ⟨by rw [h1, g1, List.length_append, List.length_append]; omega, fun w i c hw hp => ?_⟩
            have hi := perf_lt hf hw hp
            rw [h1, g1, List.append_assoc, getD_append_left (by omega)]
            exact g3 w i c (by omega) ((isPerf_same ⟨e2, e3⟩).2 hp)

theorem problem_of {I : Input} (hI : InputOk I) {W W0 : Option Wells.W} (hW : ∀ W', W = some W' → WellsFit I W') (hW0 : ∀ W', W0 = some W' → WellsFit I W') (hsame : SamePerfs W W0)
    {s : List Rat} {S : Solver} (hS : Ready I W0 S) (hP : Prepared I s S) (hwdp : ∀ W', W = some W' → numPerf W' ≤ S.wdp.length) :
    Problem I.G (some (forces I W S)) S.trans S.gpressOmega S.h where
  valid := hI.valid
  first := hI.first
  nonempty := hI.nonempty
  forces := by
    refine ⟨fun l e => ?_, fun bc e => hI.bcs bc e, fun V e => ?_⟩
    · rcases hI.src with h | h
      · simp [forces, h] at e
      · unfold forces at e
        simp only [Option.getD_some] at e
        split at e
        · cases e
        · cases e; exact h
    · have e : W = some V := e
      have hne : S.wdp ≠ [] := by
        intro h
        have := hwdp V e
        have h2 := (hW V e).perfs
        rw [h] at this
        simp only [List.length_nil] at this
        omega
      refine ⟨(hW V e).ok, S.totmob, S.wdp, rfl, ?_, hP.totLen.ge, hwdp V e⟩
      unfold forces
      simp [hne]
  sizes := ⟨hP.transLen.ge, hP.gpoLen.ge⟩
  data := by
    obtain ⟨junk, jd, hd, e, hs⟩ := hS.data
    refine ⟨junk, jd, W0, hd, fun V e => (hW0 V e).ok, fun V e => ?_, e, hs⟩
    have e : W = some V := e
    subst e
    cases W0 with
    | none => exact absurd hsame (by simp [SamePerfs])
    | some V0 => exact ⟨V0, rfl, hsame⟩

theorem numWells_same {W W0 : Option Wells.W} (h : SamePerfs W W0) : numWells W = numWells W0 := by
  cases W <;> cases W0
  · rfl
  · exact absurd h (by simp [SamePerfs])
  · exact absurd h (by simp [SamePerfs])
  · exact h.1

theorem sized_of {I : Input} (hI : InputOk I) {W W0 : Option Wells.W} (hW0 : ∀ W', W0 = some W' → WellsFit I W') (hsame : SamePerfs W W0) {S : Solver} (hS : Ready I W0 S) :
    Sized I.G (forces I W S) S.h ∧ S.h.x.length = S.h.A.m ∧ S.h.b.length = S.h.A.m := by
  obtain ⟨junk, jd, hd, e, hs⟩ := hS.data
  obtain ⟨h', e', l1, l2, l3, _⟩ := construct_succeeds junk jd hI.valid hI.nonempty (W := W0) (fun W' h => (hW0 W' h).ok)
  rw [e'] at e
  cases e
  refine ⟨?_, by rw [hs.x, hs.A, l2], by rw [hs.b, hs.A, l3]⟩
  unfold Sized
  rw [hs.A, l1]
  show _ = I.G.nc + numWells W
  rw [numWells_same hsame]

theorem perfTrans_is {I : Input} {W : Option Wells.W} {V : Wells.W} (hV : WellsFit I V) {s : List Rat} {S : Solver} (hP : Prepared I s S) {w i c : Nat} (hw : w < V.nw) (hp : IsPerf V w i c) :
    perfTrans (forces I W S) V i = lam I s c * V.wi.getD i 0 := by
  obtain ⟨c', h1, h2⟩ := hV.ok.cell i (perf_lt hV hw hp)
  obtain ⟨a, b, _, _, _, _, h5⟩ := hp
  rw [h1] at h5
  cases h5
  unfold perfTrans
  rw [show (forces I W S).totmob = some S.totmob from rfl, getD_of_getElem? h1, Option.getD_some, Int.toNat_natCast, hP.tot c h2]

theorem perfs_nonneg {I : Input} {W : Option Wells.W} (hW : ∀ W', W = some W' → WellsFit I W') {s : List Rat} (hl : ∀ c, c < I.G.nc → 0 < lam I s c) {S : Solver} (hP : Prepared I s S) :
    PerfsNonneg (forces I W S) := by
  intro V e i hi
  have e : W = some V := e
  have hV := hW V e
  obtain ⟨c, h1, h2⟩ := hV.ok.cell i hi
  unfold perfTrans
  rw [show (forces I W S).totmob = some S.totmob from rfl, getD_of_getElem? h1, Option.getD_some, Int.toNat_natCast, hP.tot c h2]
  exact mul_nonneg (le_of_lt (hl c h2)) (hV.wi i hi)

theorem perf_cell {I : Input} {V : Wells.W} (hV : WellsFit I V) {w i c : Nat} (hw : w < V.nw) (hp : IsPerf V w i c) : c < I.G.nc := by
  obtain ⟨c', h1, h2⟩ := hV.ok.cell i (perf_lt hV hw hp)
  obtain ⟨a, b, _, _, _, _, h5⟩ := hp
  rw [h1] at h5
  cases h5
  exact h2

theorem anchored_of {I : Input} (hI : InputOk I) {W : Option Wells.W} (hW : ∀ W', W = some W' → WellsFit I W') {s : List Rat} (hl : ∀ c, c < I.G.nc → 0 < lam I s c) {S : Solver}
    (hP : Prepared I s S) {c : Nat} (h : Linked I W c) : Anchored I.G (forces I W S) S.trans (fun _ => False) c := by
  induction h with
  | cond hB hc hs =>
    refine .cond hB hc hs (hP.trans _ ?_).2
    rcases hs with hs | hs <;> exact hs.lt hI.valid
  | bhp hV hw hm hi ht =>
    refine .bhp hV hw hm hi ?_
    rw [perfTrans_is (hW _ hV) hP hw hi]
    exact mul_pos (hl _ (perf_cell (hW _ hV) hw hi)) ht
  | face hs _ ih =>
    refine .face hs (hP.trans _ ?_).2 ih
    rcases hs with hs | hs <;> exact hs.lt hI.valid
  | well hV hw hm hi hj hti htj _ ih =>
    refine .well hV hw hm hi hj ?_ ?_ ih
    · rw [perfTrans_is (hW _ hV) hP hw hi]
      exact mul_pos (hl _ (perf_cell (hW _ hV) hw hi)) hti
    · rw [perfTrans_is (hW _ hV) hP hw hj]
      exact mul_pos (hl _ (perf_cell (hW _ hV) hw hj)) htj

theorem connected_of {I : Input} {W : Option Wells.W} (hW : ∀ W', W = some W' → WellsFit I W') {s : List Rat} (hl : ∀ c, c < I.G.nc → 0 < lam I s c) {S : Solver}
    (hP : Prepared I s S) (h : AllPerforated W) : WellsConnected (forces I W S) := by
  intro V w e hw
  have e : W = some V := e
  obtain ⟨i, c, hp, ht⟩ := h V w e hw
  refine ⟨i, c, hp, ?_⟩
  rw [perfTrans_is (hW _ e) hP hw hp]
  exact mul_pos (hl _ (perf_cell (hW _ e) hw hp)) ht

theorem checkWellState_ok {I : Input} {W : Option Wells.W} (hW : ∀ W', W = some W' → WellsFit I W') {st : State} (hst : ∀ W', W = some W' → st.bhp.length = W'.nw ∧ st.perfRates.length = numPerf W') :
    checkWellState W st = .ok () := by
  unfold checkWellState
  cases W with
  | none => rfl
  | some V =>
    have hV := hW V rfl
    obtain ⟨h1, h2⟩ := hst V rfl
    dsimp only
    rw [check_ok (by simpa using h1), bind_ok, rd_of_getElem? (hV.ok.pos.get (le_refl _)), bind_ok]
    exact check_ok (by rw [h2]; simp [numPerf])

theorem srcOf_is (I : Input) (W : Option Wells.W) (S : Solver) (c : Nat) : srcOf (forces I W S) c = source I c := by
  unfold srcOf source forces
  cases h : I.src <;> simp

/-- What `obtain` gives, whatever `xs` is. -/
theorem obtain_runs {I : Input} (hI : InputOk I) {W : Option Wells.W} (hW : ∀ W', W = some W' → WellsFit I W') {s : List Rat}
    {S : Solver} (hP : Prepared I s S) {h0 h' : Data} {ok : Bool} (p : Problem I.G (some (forces I W S)) S.trans S.gpressOmega h0)
    (ha : assemble I.G (some (forces I W S)) S.trans S.gpressOmega h0 = .ok (h', ok)) {xs : List Rat} (hl : xs.length = h'.A.m)
    {st : State} (h1 : st.pressure.length = I.G.nc) (h2 : st.faceflux.length = I.G.nf) (h3 : ∀ W', W = some W' → st.bhp.length = W'.nw ∧ st.perfRates.length = numPerf W') :
    ∃ s0 s', SolnOk I.G ((some (forces I W S)).getD noForces) s0 ∧ (∀ V, W = some V → s0.wellPress = some st.bhp) ∧
      pressFlux I.G (some (forces I W S)) S.trans { h' with x := xs } s0 = .ok s' ∧
      obtain I W st { S with h := { h' with x := xs } } =
        .ok { st with pressure := s'.cellPress, faceflux := s'.faceFlux, bhp := s'.wellPress.getD st.bhp, perfRates := s'.wellFlux.getD st.perfRates } ∧
      Darcy I s { st with pressure := s'.cellPress, faceflux := s'.faceFlux, bhp := s'.wellPress.getD st.bhp, perfRates := s'.wellFlux.getD st.perfRates } ∧
      (∀ c, c < I.G.nc → s'.cellPress.getD c 0 = xs.getD c 0) := by
  set s0 : Soln := { cellPress := st.pressure, faceFlux := st.faceflux, wellPress := W.map (fun _ => st.bhp), wellFlux := W.map (fun _ => st.perfRates) } with hs0
  have hs : SolnOk I.G ((some (forces I W S)).getD noForces) s0 := by
    refine ⟨h1.ge, h2.ge, fun V q e e' => ?_, fun V e => ?_⟩
    · have e : W = some V := e
      subst e
      cases e'
      exact (h3 V rfl).1.ge
    · have e : W = some V := e
      subst e
      exact ⟨_, rfl, (h3 V rfl).2.ge⟩
  obtain ⟨s', e1, hcell, hint, hpress, hflux, hclosed⟩ := flux_law p ha hl hs
  refine ⟨s0, s', hs, fun V e => by rw [hs0, e]; rfl, e1, ?_, ?_, hcell⟩
  · unfold obtain
    rw [check_ok (by simpa using h1), bind_ok, check_ok (by simpa using h2), bind_ok, checkWellState_ok hW h3, bind_ok]
    show (pressFlux I.G (some (forces I W S)) S.trans { h' with x := xs } s0 >>= _) = _
    rw [e1, bind_ok]
  · refine ⟨fun f a b hsd => ?_, fun bc v f hB hc c => ?_, hflux, hclosed⟩
    · obtain ⟨i1, k1⟩ := half_exists hI (.inl ⟨_, hsd⟩)
      obtain ⟨i2, k2⟩ := half_exists hI (.inr ⟨_, hsd⟩)
      have := hP.trans f (hsd.lt hI.valid)
      refine ⟨_, this.1, this.2, ?_⟩
      rw [← hP.gpo a f i1 k1, ← hP.gpo b f i2 k2]
      exact hint f a b i1 i2 hsd k1 k2
    · by_cases hf : f < I.G.nf
      · exact ⟨_, (hP.trans f hf).1, hpress bc v f hB hc c⟩
      · have hno : ∀ x y : Int, ¬ I.G.Sides f x y := fun x y h => hf (h.lt hI.valid)
        exact ⟨0, ⟨fun a b h => absurd h (hno _ _), fun a h => h.elim (fun h => absurd h (hno _ _)) (fun h => absurd h (hno _ _))⟩, fun h => absurd h (hno _ _), fun h => absurd h (hno _ _)⟩

/-- What `obtain` gives, for the solution `xs` of the equations of the wells. -/
theorem obtain_ok {I : Input} (hI : InputOk I) {W : Option Wells.W} (hW : ∀ W', W = some W' → WellsFit I W') (hall : AllPerforated W) {s : List Rat} (hlam : ∀ c, c < I.G.nc → 0 < lam I s c)
    {S : Solver} (hP : Prepared I s S) {h0 h' : Data} {ok : Bool} (p : Problem I.G (some (forces I W S)) S.trans S.gpressOmega h0)
    (ha : assemble I.G (some (forces I W S)) S.trans S.gpressOmega h0 = .ok (h', ok)) {xs : List Rat} (hl : xs.length = h'.A.m) {mode : Nat → WellMode} (hm : Modes (forces I W S) mode)
    (hb : ∀ V, W = some V → ∀ w, w < V.nw → balance I.G (forces I W S) mode S.trans h'.fgrav (vec xs, I.G.nc + w) = 0)
    {st : State} (h1 : st.pressure.length = I.G.nc) (h2 : st.faceflux.length = I.G.nf) (h3 : ∀ W', W = some W' → st.bhp.length = W'.nw ∧ st.perfRates.length = numPerf W') :
    ∃ st', obtain I W st { S with h := { h' with x := xs } } = .ok st' ∧ st'.saturation = st.saturation ∧ Darcy I s st' ∧
      Balanced I W (fun c => balance I.G (forces I W S) mode S.trans h'.fgrav (vec xs, c)) st' ∧
      (∀ c, c < I.G.nc → st'.pressure.getD c 0 = xs.getD c 0) ∧
      ∀ V, W = some V → ∀ off : Nat → Nat → Nat → Rat, (∀ w i c, w < V.nw → IsPerf V w i c → S.wdp.getD i 0 = off w i c) → WellsSolved I V s off st' ∧
        ∀ w, w < V.nw → HasMode V w .shut → st'.bhp.getD w 0 = st.bhp.getD w 0 := by
  have hn : PerfsNonneg ((some (forces I W S)).getD noForces) := perfs_nonneg hW hlam hP
  obtain ⟨s0, s', hs, hwp, e1, hrun, hdarcy, hcell⟩ := obtain_runs hI hW hP p ha hl h1 h2 h3
  have hbal : ∀ c, c < I.G.nc → I.G.netOutflow (vec s'.faceFlux) c = srcOf (forces I W S) c + wellSource (forces I W S) s' c - balance I.G (forces I W S) mode S.trans h'.fgrav (vec xs, c) := by
    obtain ⟨k1, sing, h'', _, e, hsame, _, hg, _⟩ := assemble_cases p hm
    have ha' := ha
    rw [e] at ha'
    cases ha'
    obtain ⟨s'', e2, hf⟩ := flux_balance p hn hm hsame hg hl hs (fun V w e hw => hb V e w hw)
    rw [e1] at e2
    cases e2
    exact hf
  refine ⟨_, hrun, rfl, hdarcy, ?_, hcell, ?_⟩
  · intro c hc
    dsimp only
    rw [← srcOf_is I W S]
    refine (hbal c hc).trans ?_
    congr 2
    unfold wellSource fromWells
    cases W with
    | none => rfl
    | some V =>
      have : s'.wellFlux = some (s'.wellFlux.getD []) := by
        obtain ⟨s2, e2, hso, _⟩ := pressFlux_of p hm ha hl hs
        rw [e1] at e2
        cases e2
        obtain ⟨q, e3, _⟩ := hso.wellFlux V rfl
        rw [e3]
        rfl
      show wellInflow V s'.perfFlux c = wellInflow V _ c
      congr 1
      funext i
      unfold Soln.perfFlux
      rw [this]
      rfl
  · intro V e off hoff
    subst e
    have hV := hW V rfl
    obtain ⟨s2, pr', e2, epr, hwell⟩ := wells_of_rows p hn hm ha hl hs (W := V) rfl (pr := st.bhp) (hwp V rfl) (fun w hw => hb V rfl w hw)
    rw [e1] at e2
    cases e2
    have hq : ∀ i, (s'.wellFlux.getD st.perfRates).getD i 0 = s'.perfFlux i := by
      intro i
      obtain ⟨s2, e2, hso, _⟩ := pressFlux_of p hm ha hl hs
      rw [e1] at e2
      cases e2
      obtain ⟨q, e3, _⟩ := hso.wellFlux V rfl
      unfold Soln.perfFlux
      rw [e3]
      rfl
    have hne : S.wdp ≠ [] := by
      intro h
      obtain ⟨_, mt, wdp, _, e4, _⟩ := p.forces.wells V rfl
      simp [forces, h] at e4
    have hwdp : (((some (forces I (some V) S)).getD noForces).wdp.getD []) = S.wdp := by
      unfold forces
      simp [hne]
    have hpt : ∀ w i c, w < V.nw → IsPerf V w i c → perfTrans ((some (forces I (some V) S)).getD noForces) V i = lam I s c * V.wi.getD i 0 :=
      fun w i c hw hp => perfTrans_is hV hP hw hp
    have hbhp : ∀ w t, w < V.nw → HasMode V w (.bhp t) → pr'.getD w 0 = t := by
      intro w t hw hmo
      obtain ⟨i, c, hp, ht⟩ := hall V w rfl hw
      refine (hwell w hw).1 t hmo ⟨i, c, hp, ?_⟩
      rw [hpt w i c hw hp]
      exact mul_pos (hlam _ (perf_cell hV hw hp)) ht
    refine ⟨⟨fun w t hw hmo => ?_, fun w q hw hmo => ?_, fun w hw hns i c hp => ?_, fun w hw hsh i c hp => ?_⟩, fun w hw hsh => ?_⟩
    · dsimp only
      rw [epr]
      exact hbhp w t hw hmo
    · dsimp only
      rw [show (fun i => (s'.wellFlux.getD st.perfRates).getD i 0) = s'.perfFlux from funext hq]
      exact (hwell w hw).2.2.1 q hmo
    · dsimp only
      rw [hq, epr, Option.getD_some]
      obtain ⟨m, hmo⟩ := hV.ok.mode w hw
      cases m with
      | shut => exact absurd hmo hns
      | bhp t =>
        have := (hwell w hw).2.1 t hmo i c hp
        rw [hpt w i c hw hp, hwdp, hoff w i c hw hp] at this
        rw [this, hbhp w t hw hmo]
      | rate q =>
        have := (hwell w hw).2.2.2.1 q hmo i c hp
        rw [hpt w i c hw hp, hwdp, hoff w i c hw hp] at this
        exact this
    · dsimp only
      rw [hq]
      exact ((hwell w hw).2.2.2.2 hsh).2 i c hp
    · dsimp only
      rw [epr]
      exact ((hwell w hw).2.2.2.2 hsh).1

/-- No rock compressibility takes part. -/
def Rigid (I : Input) : Prop := ∀ r, I.rock = some r → r.isActive = false

theorem solve_rigid {ls : Data → List Rat} {I : Input} (h : Rigid I) (W : Option Wells.W) (dt : Rat) (S : Solver) (st : State) : solve ls I W dt S st = solveIncomp ls I W S st := by
  unfold solve
  cases hr : I.rock with
  | none => rfl
  | some r => simp [h r hr]

theorem somePressure_of {bc : FlowBc.Bcs} {v : Rat} {f : Nat} (h : HasCond bc .pressure v f) : ∃ i, i < bc.nbc ∧ bc.type[i]? = some .pressure := by
  obtain ⟨i, j, a, b, hi, hty, _⟩ := h
  exact ⟨i, hi, hty⟩

theorem linked_some {I : Input} {W : Option Wells.W} {c : Nat} (h : Linked I W c) (S : Solver) : SomeBhpWell (forces I W S) ∨ SomePressureCond (forces I W S) := by
  induction h with
  | cond hB hc _ =>
    obtain ⟨i, h1, h2⟩ := somePressure_of hc
    exact .inr ⟨_, i, hB, h1, h2⟩
  | bhp hV hw hm _ _ => exact .inl ⟨_, _, _, hV, hw, hm⟩
  | face _ _ ih => exact ih
  | well _ _ _ _ _ _ _ _ ih => exact ih

/-- The object keeps its shape when the solver data get other numbers. -/
theorem Ready.with_h {I : Input} {W0 : Option Wells.W} {S : Solver} (hS : Ready I W0 S) {h' : Data} (h : SameShape S.h h') : Ready I W0 { S with h := h' } := by
  obtain ⟨junk, jd, hd, e, hs⟩ := hS.data
  exact ⟨hS.htLen, hS.ht, hS.gp, hS.gpoLen, hS.gpo, hS.transLen, ⟨junk, jd, hd, e, hs.trans h⟩, hS.rock, hS.press, hS.wdp⟩

/-- The incompressible call, whenever the linear system is solved. -/
theorem incomp_core {ls : Data → List Rat} {I : Input} (hI : InputOk I) {W W0 : Option Wells.W} (hW : ∀ W', W = some W' → WellsFit I W') (hW0 : ∀ W', W0 = some W' → WellsFit I W')
    (hsame : SamePerfs W W0) {st : State} (hst : StateOk I W st) (hR : Rigid I) {first : Option (Option Wells.W × List Rat)} {S : Solver} (hS : Ready I W0 S)
    (hO : Offs I W0 first S.wdp) (hlen : ∀ h, (ls h).length = h.A.m) :
    (∀ S' st', solveIncomp ls I W S st = .ok (S', st') → Ready I W0 S' ∧ Offs I W0 (some (first.getD (W, st.saturation))) S'.wdp) ∧
    (Exact ls → AllPerforated W → (∀ c, c < I.G.nc → Linked I W c) → ∃ S' st', solveIncomp ls I W S st = .ok (S', st') ∧ st'.saturation = st.saturation ∧ Darcy I st.saturation st' ∧ Balanced I W (fun _ => 0) st' ∧
      ∀ V, W = some V → WellsSolved I V st.saturation (fun w _ c => usedOffset I first V st.saturation w c) st' ∧ ∀ w, w < V.nw → HasMode V w .shut → st'.bhp.getD w 0 = st.bhp.getD w 0) := by
  obtain ⟨S1, e1, hS1, hP, ho, hh, _⟩ := perSolve_ok hI hW hsame hst (fun r hr ha => by rw [hR r hr] at ha; cases ha) hS
  obtain ⟨hO1, hoff⟩ := offs_step hW hsame hO ho
  have p := problem_of hI hW hW0 hsame hS1 hP (fun V e => (hoff V e).1)
  obtain ⟨mode, hm⟩ := exists_modes p.forces
  obtain ⟨k1, sing, h', _, e2, hsm, hsm1, hg, _⟩ := assemble_cases p hm
  obtain ⟨hz, hx, _⟩ := sized_of hI hW0 hsame hS1
  have hshape : SameShape S1.h { h' with x := ls h' } := ⟨hsm.A, hsm.sa, hsm.b, by rw [hx, ← hsm.A]; exact hlen h', hsm.fgrav, hsm.work⟩
  have hrun : solveIncomp ls I W S st = (obtain I W st { S1 with h := { h' with x := ls h' } } >>= fun st => .ok ({ S1 with h := { h' with x := ls h' } }, st)) := by
    unfold solveIncomp
    rw [e1, bind_ok, e2, bind_ok]
    rfl
  rw [hrun]
  constructor
  · intro S' st' h
    obtain ⟨st2, _, h2⟩ := bind_eq_ok.1 h
    cases h2
    exact ⟨hS1.with_h hshape, hO1⟩
  · intro hex hall hlink
    have hns := linked_some (hlink 0 hI.nonempty) S1
    have hsol : Solves h' (vec (ls h')) := by
      refine (hex h').2 ?_
      obtain ⟨hxs, _⟩ := pressure_system_regular p (fun f hf => le_of_lt (hP.trans f hf).2) (perfs_nonneg hW hst.flows hP) (fun c hc => anchored_of hI hW hst.flows hP (hlink c hc))
        (connected_of hW hst.flows hP hall) hz e2
      exact hxs
    have hb := bal_zero p hns hm e2 hsol
    obtain ⟨st', e3, hsat, hdar, hso, _, hwell⟩ := obtain_ok hI hW hall hst.flows hP p e2 (hlen h') hm (fun V e w hw => hb _ (by
        rw [hz]
        show _ < I.G.nc + numWells W
        rw [e]
        exact Nat.add_lt_add_left hw _)) hst.pressure hst.faceflux hst.wells
    rw [e3, bind_ok]
    refine ⟨_, st', rfl, hsat, hdar, fun c hc => ?_, fun V e => hwell V e _ (fun w i c hw hp => (hoff V e).2 w i c hw hp)⟩
    rw [hso c hc]
    have := hb c (by
      rw [hz]
      show _ < I.G.nc + numWells W
      omega)
    exact congrArg (fun z => source I c + fromWells W st'.perfRates c - z) this

end Opm.IncompTpfa
