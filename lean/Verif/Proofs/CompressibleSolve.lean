import Verif.Proofs.CompressibleData
import Verif.Proofs.IncompRock
import Verif.Props.CfsTpfa
/-!
# The iteration of the pressure solver for compressible fluids
-/

namespace Opm.CompressibleTpfa
open Opm Opm.CfsTpfa
open _root_.Opm.IfsTpfa (numPerf numWells index index_ok getD_of_getElem?)
open _root_.Opm.MiscBlackoil (sub)
open _root_.Opm.MiscUtil (vresize length_vresize)

/-! ## Construction -/

theorem dist_pos {I : Input} (hI : InputOk I) {c f i : Nat} (h : I.G.HalfFace c f i) : 0 < dotN I.geo.d (I.geo.dist c f) (I.geo.dist c f) := by
  have h0 : 0 ≤ dotN I.geo.d (I.geo.dist c f) (I.geo.dist c f) := Finset.sum_nonneg fun j _ => mul_self_nonneg _
  refine lt_of_le_of_ne h0 fun e => hI.conducts c f i h ?_
  have hz := (Finset.sum_eq_zero_iff_of_nonneg (s := Finset.range I.geo.d) (f := fun j => I.geo.dist c f j * I.geo.dist c f j) fun j _ => mul_self_nonneg _).1 e.symm
  refine Finset.sum_eq_zero fun j hj => ?_
  rw [mul_self_eq_zero.1 (hz j hj), zero_mul]

theorem halfTrans_pos {I : Input} (hI : InputOk I) {c f i : Nat} (h : I.G.HalfFace c f i) : 0 < halfTrans I c f :=
  div_pos (abs_pos.2 (hI.conducts c f i h)) (dist_pos hI h)

/-- Members that are kept from call to call. -/
structure Ready (I : Input) (W0 : Option Wells.W) (S : Solver) : Prop where
  static : Static I W0 S
  data : ∃ junk jd jc h0, construct junk jd jc I.G W0 = .ok h0 ∧ SameShape h0 S.h
  inc : S.inc.length = I.G.nc + numWells W0

theorem make_ok (junk : Nat → Nat) (jd : Nat → Rat) (jc : Nat → Comp) {I : Input} (hI : InputOk I) {W : Option Wells.W} (hW : ∀ V, W = some V → WellsFit I V) :
    ∃ S, make junk jd jc I W = .ok S ∧ Ready I W S := by
  unfold make
  have hp := hI.valid.rowPos hI.first
  rw [rd_of_getElem? (hp.get (le_refl _)), bind_ok]
  have h1 : checkPhases I W = .ok () := by
    unfold checkPhases
    cases W with
    | none => rfl
    | some V => exact if_neg (by simp [(hW V rfl).np])
  rw [h1, bind_ok]
  obtain ⟨ht, e, l1, l2⟩ := Trans.htrans_formula I.G I.geo I.perm (List.replicate (I.G.cellFacepos.getD I.G.nc 0) 0) hI.valid hI.first hI.sizes (by simp) (fun c f i h => dist_pos hI h)
  rw [e, bind_ok]
  rw [List.length_replicate] at l1
  have hht : ∀ c f i, I.G.HalfFace c f i → ht.getD i 0 = halfTrans I c f := fun c f i h => by rw [List.getD_eq_getElem?_getD, l2 c f i h]; rfl
  obtain ⟨t, e2, l3, l4⟩ := Trans.trans_is_harmonic I.G ht (List.replicate I.G.nf 0) hI.valid hI.first hI.sided l1.ge (by
    intro x hx
    obtain ⟨i, hi, rfl⟩ := List.mem_iff_getElem.1 hx
    obtain ⟨c, hc, h1, h2⟩ := hp.exists_row (i := i) (by rw [← l1]; exact hi)
    obtain ⟨f, hf, _⟩ := hI.valid.face_at hc h2
    have hh := (Trans.halfFace_iff hI.valid).2 ⟨hc, h1, h2, hf⟩
    have := l2 c f i hh
    rw [List.getElem?_eq_getElem hi] at this
    rw [Option.some.inj this]
    exact halfTrans_pos hI hh) (by simp)
  rw [e2, bind_ok]
  have hpv : ∃ pv, fixedPorevol I = .ok pv ∧ (activeRock I = none → pv.length = I.G.nc ∧ ∀ c, c < I.G.nc → pv.getD c 0 = I.porosity.getD c 0 * I.vol.getD c 0) := by
    unfold fixedPorevol
    cases activeRock I with
    | none =>
      obtain ⟨pv, e, h1, h2⟩ := MiscUtil.porevolume_eq I.G.nc [] hI.vol hI.porosity
      exact ⟨pv, e, fun _ => ⟨h1, h2⟩⟩
    | some r => exact ⟨[], rfl, fun h => by cases h⟩
  obtain ⟨pv, e3, hpv⟩ := hpv
  rw [e3, bind_ok]
  obtain ⟨h, e4, _⟩ := construct_ok junk jd jc hI.valid hI.nonempty (Wc := W) (fun V h => (hW V h).perfs)
  rw [e4, bind_ok]
  refine ⟨_, rfl, ?_⟩
  refine ⟨⟨l1.ge, hht, by rw [l3, List.length_replicate], fun f hf => ?_, hpv⟩, ⟨junk, jd, jc, h, e4, rfl, rfl, rfl, rfl, rfl, rfl⟩, List.length_replicate⟩
  obtain ⟨v, g1, g2, g3, _⟩ := l4 f hf
  dsimp only
  rw [getD_of_getElem? g1]
  refine ⟨g2, fun a b hs => ?_⟩
  obtain ⟨i1, h1⟩ := Trans.exists_half hI.valid hs (.inl rfl)
  obtain ⟨i2, h2⟩ := Trans.exists_half hI.valid hs (.inr rfl)
  rw [g3 a b i1 i2 hs h1 h2]
  dsimp only
  rw [hht _ _ _ h1, hht _ _ _ h2]

/-! ## What is computed for a state -/

/-- Members computed once per call, for the state `st0`. -/
structure Begun (I : Input) (W : Option Wells.W) (m : Rat → Rat) (st0 : State) (S : Solver) : Prop where
  wdp : ∀ V, W = some V → S.wdp.length = numPerf V ∧ ∀ w k, w < V.nw → V.connpos.getD w 0 ≤ k → k < V.connpos.getD (w + 1) 0 → S.wdp.getD k 0 = offset I V st0 w (perfCell V k)
  pv : activeRock I ≠ none → S.initialPv.length = I.G.nc ∧ ∀ c, c < I.G.nc → S.initialPv.getD c 0 = poreVolume I m c (st0.pressure.getD c 0)

/-- Members computed for the state `d`. -/
structure Dyn (I : Input) (W : Option Wells.W) (m k : Rat → Rat) (d : State) (S : Solver) : Prop where
  cells : CellsAt I d S
  rock : RockAt I m k d S.porevol S.rockComp
  fA : S.faceA.length = I.G.nf * (I.fluid.np * I.fluid.np)
  fM : S.faceMob.length = I.G.nf * I.fluid.np
  fG : S.gravcap.length = I.G.nf * I.fluid.np
  face : ∀ f, f < I.G.nf → FaceAt I d S.faceA S.faceMob S.gravcap f
  wells : ∀ V, W = some V → S.perfA.length = numPerf V * (I.fluid.np * I.fluid.np) ∧ S.perfMob.length = numPerf V * I.fluid.np ∧
    ∀ w k, w < V.nw → V.connpos.getD w 0 ≤ k → k < V.connpos.getD (w + 1) 0 → PerfAt I V d S.wdp S.perfA S.perfMob w k

theorem perSolve_ok {I : Input} (hI : InputOk I) {m k : Rat → Rat} (hr : RockIs I m k) {W W0 : Option Wells.W} (hW : ∀ V, W = some V → WellsFit I V) {st : State} (hst : StateOk I W st)
    {S : Solver} (hS : Ready I W0 S) : ∃ S', perSolve I W st S = .ok S' ∧ Ready I W0 S' ∧ Begun I W m st S' := by
  have h1 : ∃ wdp, wellPotentials I W st S.wdp = .ok wdp ∧
      ∀ V, W = some V → wdp.length = numPerf V ∧ ∀ w k, w < V.nw → V.connpos.getD w 0 ≤ k → k < V.connpos.getD (w + 1) 0 → wdp.getD k 0 = offset I V st w (perfCell V k) := by
    cases W with
    | none => exact ⟨_, rfl, fun V h => by cases h⟩
    | some V =>
      obtain ⟨d, e, l, v⟩ := wellPotentials_ok hI (hW V rfl) hst.pressure hst.surfacevol hst.saturation S.wdp
      exact ⟨d, e, fun V' h => by cases h; exact ⟨l, v⟩⟩
  have h2 : ∃ pv, initialPart I st S.initialPv = .ok pv ∧ (activeRock I ≠ none → pv.length = I.G.nc ∧ ∀ c, c < I.G.nc → pv.getD c 0 = poreVolume I m c (st.pressure.getD c 0)) := by
    unfold initialPart
    cases ha : activeRock I with
    | none => exact ⟨_, rfl, fun h => absurd rfl h⟩
    | some r =>
      obtain ⟨pv, e, l, v⟩ := MiscUtil.porevolume_comp_eq I.G.nc S.initialPv (pressure := st.pressure) (hr.active r ha).1 hI.vol hI.porosity hst.pressure.ge
      exact ⟨pv, e, fun _ => ⟨l, v⟩⟩
  obtain ⟨wdp, e1, v1⟩ := h1
  obtain ⟨pv, e2, v2⟩ := h2
  unfold perSolve
  rw [e1, bind_ok, e2, bind_ok]
  refine ⟨_, rfl, ⟨?_, hS.data, hS.inc⟩, v1, v2⟩
  obtain ⟨a, b, c, d, e⟩ := hS.static
  exact ⟨a, b, c, d, e⟩

theorem perIteration_ok {I : Input} (hI : InputOk I) {m k : Rat → Rat} (hr : RockIs I m k) {W W0 : Option Wells.W} (hW : ∀ V, W = some V → WellsFit I V) {st0 st : State} (hst : StateOk I W st)
    {S : Solver} (hS : Ready I W0 S) (hB : Begun I W m st0 S) : ∃ S', perIteration I W st S = .ok S' ∧ Ready I W0 S' ∧ Begun I W m st0 S' ∧ Dyn I W m k st S' := by
  obtain ⟨A, dA, mb, pv, rc, e1, hC, hR, hpv⟩ := cellData_ok hI hr hst.pressure hst.surfacevol hst.saturation hS.static
  obtain ⟨fA, fM, fG, e2, l1, l2, l3, hf⟩ := faceData_ok hI hst.pressure hst.facepressure hC
  unfold perIteration
  rw [e1, bind_ok, e2, bind_ok]
  have hst' : ∀ (S' : Solver), S'.htrans = S.htrans → S'.trans = S.trans → S'.porevol = pv → Static I W0 S' := by
    rintro S' h1 h2 h3
    obtain ⟨a, b, c, d, e⟩ := hS.static
    exact ⟨h1 ▸ a, h1 ▸ b, h2 ▸ c, h2 ▸ d, fun h => by rw [h3, hpv h]; exact e h⟩
  have hC' : ∀ S' : Solver, S'.cellA = A → S'.cellDA = dA → S'.cellMob = mb → CellsAt I st S' := by
    rintro S' rfl rfl rfl
    exact ⟨hC.1, hC.2, hC.3, hC.4, hC.5, hC.6⟩
  cases W with
  | none =>
    refine ⟨_, rfl, ⟨hst' _ rfl rfl rfl, hS.data, hS.inc⟩, ⟨fun V h => by (cases h), hB.pv⟩, ⟨hC' _ rfl rfl rfl, hR, l1, l2, l3, hf, fun V h => by (cases h)⟩⟩
  | some V =>
    obtain ⟨pA, pM, e3, k1, k2, k3⟩ := wellData_ok hI (hW V rfl) (hst.wells V rfl).1 (hC' { S with cellA := A, cellDA := dA, cellMob := mb, porevol := pv, rockComp := rc, faceA := fA, faceMob := fM, gravcap := fG } rfl rfl rfl) (hB.wdp V rfl).1
    rw [e3]
    refine ⟨_, rfl, ⟨hst' _ rfl rfl rfl, hS.data, hS.inc⟩, ⟨hB.wdp, hB.pv⟩, ⟨hC' _ rfl rfl rfl, hR, l1, l2, l3, hf, fun V' h => ?_⟩⟩
    cases h
    exact ⟨k1, k2, k3⟩

/-! ## Assembly -/

/-- Arguments of the assembly. -/
def args (I : Input) (W : Option Wells.W) (dt : Rat) (S : Solver) (st : State) : CfsTpfa.Input :=
  { G := I.G, dt := dt, F := forces W S, zc := st.surfacevol, cq := quantities I S, trans := S.trans, gravcap := S.gravcap, cpress := st.pressure, wpress := st.bhp
    porevol := match activeRock I with
      | none => S.porevol
      | some _ => S.initialPv }

theorem elm_lt {np i j : Nat} (hi : i < np) (hj : j < np) : j * np + i < np * np := by
  have := row_le (k := np) hj
  omega

theorem regular_congr {np : Nat} {A B : Nat → Rat} (h : ∀ j, j < np * np → A j = B j) (hB : Regular np B) : Regular np A := by
  intro v hv
  refine hB v fun i hi => ?_
  rw [← hv i hi]
  exact Finset.sum_congr rfl fun j hj => by rw [h _ (elm_lt hi (Finset.mem_range.1 hj))]

theorem args_wells {I : Input} {W : Option Wells.W} {dt : Rat} {S : Solver} {st : State} {V : Wells.W} {D : Completions} (h : (args I W dt S st).F.wells = some (V, D)) :
    W = some V ∧ D = { wdp := S.wdp, A := S.perfA, phasemob := S.perfMob } := by
  cases W with
  | none => cases h
  | some V' =>
    have h' : some (V', ({ wdp := S.wdp, A := S.perfA, phasemob := S.perfMob } : Completions)) = some (V, D) := h
    cases h'
    exact ⟨rfl, rfl⟩

theorem args_ok {I : Input} (hI : InputOk I) {m k : Rat → Rat} {W W0 : Option Wells.W} (hW : ∀ V, W = some V → WellsFit I V) {st0 d st : State} {S : Solver} (hS : Ready I W0 S)
    (hB : Begun I W m st0 S) (hD : Dyn I W m k d S) (hst : StateOk I W st) (dt : Rat) : CfsTpfa.InputOk (args I W dt S st) where
  valid := hI.valid
  first := hI.first
  nonempty := hI.nonempty
  zc := hst.surfacevol.ge
  Ac := hD.cells.ALen.ge
  dAc := hD.cells.dALen.ge
  Af := hD.fA.ge
  mob := hD.fM.ge
  gravcap := hD.fG.ge
  trans := hS.static.transLen.ge
  cpress := hst.pressure.ge
  porevol := by
    show I.G.nc ≤ (match activeRock I with
      | none => S.porevol
      | some _ => S.initialPv).length
    cases ha : activeRock I with
    | none => exact hD.rock.pvLen.ge
    | some r => exact (hB.pv (by rw [ha]; simp)).1.ge
  regular := fun c hc => regular_congr (fun j hj => hD.cells.A c j hc hj) (hI.regular _ _ c hc)
  wells := fun V D h => by
    obtain ⟨hV, rfl⟩ := args_wells h
    have hw := hW V hV
    exact {
      pos := hw.perfs.pos
      cell := hw.perfs.cell
      wi := hw.wi
      mode := hw.mode
      np := hw.np
      np3 := hw.np3
      wdp := (hB.wdp V hV).1.ge
      A := (hD.wells V hV).1.ge
      mob := (hD.wells V hV).2.1.ge
      press := (hst.wells V hV).1.ge }
  src := fun s h => by cases h

theorem porevol_at {I : Input} {m k : Rat → Rat} (hr : RockIs I m k) {W : Option Wells.W} {st0 d st : State} {S : Solver}
    (hB : Begun I W m st0 S) (hD : Dyn I W m k d S) (dt : Rat) {c : Nat} (hc : c < I.G.nc) : (args I W dt S st).porevol.getD c 0 = poreVolume I m c (st0.pressure.getD c 0) := by
  show (match activeRock I with
      | none => S.porevol
      | some _ => S.initialPv).getD c 0 = _
  cases ha : activeRock I with
  | none =>
    dsimp only
    rw [hD.rock.pv c hc]
    unfold poreVolume
    rw [(hr.rigid ha _).1, (hr.rigid ha _).1]
  | some r => exact (hB.pv (by rw [ha]; simp)).2 c hc

theorem current_ok {I : Input} {m k : Rat → Rat} (hr : RockIs I m k) {W W0 : Option Wells.W} (hW : ∀ V, W = some V → WellsFit I V) {st0 d : State} {S : Solver} (hS : Ready I W0 S)
    (hB : Begun I W m st0 S) (hD : Dyn I W m k d S) (hv : I.G.Valid) (dt : Rat) : Current I W m dt st0 d (args I W dt S d) where
  G := rfl
  dt := rfl
  np := rfl
  zc := rfl
  cpress := rfl
  wpress := rfl
  src := rfl
  cells := fun c i j hc hi hj => ⟨hD.cells.A c _ hc (elm_lt hi hj), hD.cells.dA c _ hc (elm_lt hi hj)⟩
  trans := hS.static.trans
  faces := fun f a b hs => by
    obtain ⟨h1, u, h2, h3, h4⟩ := (hD.face f (GridTopo.Sides.lt hv hs)).inner a b hs
    exact ⟨h1, u, h2, h3, fun i j hi hj => h4 _ (elm_lt hi hj)⟩
  porevol := fun c hc => porevol_at hr hB hD dt hc
  none := fun h => by subst h; rfl
  wells := fun V hV => by
    subst hV
    refine ⟨_, rfl, fun w k hw h1 h2 => ⟨(hB.wdp V rfl).2 w k hw h1 h2, ?_⟩⟩
    obtain ⟨p, i⟩ := (hD.wells V rfl).2.2 w k hw h1 h2
    exact ⟨fun ht => ⟨(p ht).1, fun i j hi hj => (p ht).2 _ (elm_lt hi hj)⟩, fun ht => ⟨(i ht).1, fun i' j hi hj => (i ht).2 _ (elm_lt hi hj)⟩⟩

theorem made_of {I : Input} {W W0 : Option Wells.W} (hW : ∀ V, W = some V → WellsFit I V) (hs : SamePerfs W W0) {S S' : Solver} (hS : Ready I W0 S) : Made I.G (forces W S') S.h := by
  obtain ⟨junk, jd, jc, h0, e, h⟩ := hS.data
  refine ⟨junk, jd, jc, W0, h0, fun V0 h0 => ?_, fun V D hV => ?_, e, h⟩
  · subst h0
    cases W with
    | none => exact hs.elim
    | some V =>
      obtain ⟨h1, h2, h3⟩ := hs
      obtain ⟨p1, p2⟩ := (hW V rfl).perfs
      unfold numPerf at p2
      rw [h1, h2, h3] at *
      exact ⟨p1, p2⟩
  · cases W with
    | none => cases hV
    | some V' =>
      have h' : some (V', ({ wdp := S'.wdp, A := S'.perfA, phasemob := S'.perfMob } : Completions)) = some (V, D) := hV
      cases h'
      cases W0 with
      | none => exact hs.elim
      | some V0 => exact ⟨V0, rfl, hs.1, hs.2.1, hs.2.2⟩

theorem shape_trans {a b c : Data} (h : SameShape a b) (g : SameShape b c) : SameShape a c :=
  ⟨g.J.trans h.J, g.sa.trans h.sa, g.b.trans h.b, g.face.trans h.face, g.perf.trans h.perf, g.scratch.trans h.scratch⟩

theorem assembled_congr {K : CfsTpfa.Input} {e s e' s' : Nat → Rat} {h : Data} {adj : Bool} (hA : Assembled K e s h adj) (he : ∀ c, c < K.G.nc → e c = e' c) (hs : ∀ c, c < K.G.nc → s c = s' c) :
    Assembled K e' s' h adj := by
  obtain ⟨a, b, c, ⟨x, d1, d2⟩, f, g⟩ := hA
  exact ⟨a, b, fun i u hi hu => by rw [c i u hi hu, he i hi], ⟨x, d1, fun i u y du hi hu hd => by rw [d2 i u y du hi hu hd, hs i hi]⟩, f, g⟩

/-- The system has been assembled for the state `d`. -/
structure Done (I : Input) (W : Option Wells.W) (m k : Rat → Rat) (dt : Rat) (st0 d : State) (S : Solver) : Prop where
  asm : Assembled (args I W dt S d) (fun c => poreVolume I m c (d.pressure.getD c 0) - poreVolume I m c (st0.pressure.getD c 0))
    (fun c => poreVolume I m c (d.pressure.getD c 0) * k (d.pressure.getD c 0)) S.h S.singular
  sing : S.singular = true ↔ Loose I m k st0 d (args I W dt S d)

theorem assembleStep_ok {I : Input} (hI : InputOk I) {lu : Lapack} (hlu : LapackOk lu) {m k : Rat → Rat} (hr : RockIs I m k) {W W0 : Option Wells.W} (hW : ∀ V, W = some V → WellsFit I V)
    (hs : SamePerfs W W0) {st0 d : State} {S : Solver} (hS : Ready I W0 S) (hB : Begun I W m st0 S) (hD : Dyn I W m k d S) (hst : StateOk I W d) (dt : Rat) :
    ∃ S', assembleStep lu I W dt d S = .ok S' ∧ Ready I W0 S' ∧ Begun I W m st0 S' ∧ Dyn I W m k d S' ∧ Done I W m k dt st0 d S' := by
  have hK := args_ok hI hW hS hB hD hst dt
  have hM : Made (args I W dt S d).G (args I W dt S d).F S.h := made_of hW hs hS
  have key : ∀ h' adj, SameShape S.h h' → Ready I W0 { S with h := h', singular := adj } ∧ Begun I W m st0 { S with h := h', singular := adj } ∧ Dyn I W m k d { S with h := h', singular := adj } := by
    intro h' adj hsh
    refine ⟨⟨?_, ?_, hS.inc⟩, ⟨hB.1, hB.2⟩, ⟨⟨hD.cells.1, hD.cells.2, hD.cells.3, hD.cells.4, hD.cells.5, hD.cells.6⟩, hD.2, hD.3, hD.4, hD.5, hD.6, hD.7⟩⟩
    · obtain ⟨a, b, c, d, e⟩ := hS.static
      exact ⟨a, b, c, d, e⟩
    · obtain ⟨junk, jd, jc, h0, e, g⟩ := hS.data
      exact ⟨junk, jd, jc, h0, e, shape_trans g hsh⟩
  unfold assembleStep
  cases ha : activeRock I with
  | none =>
    have hpv : (args I W dt S d).porevol = S.porevol := by unfold args; rw [ha]
    obtain ⟨_, _, h', adj, _, e, hsh, _⟩ := assemble_ok hK hlu hM
    obtain ⟨h'', adj', e', _, hA⟩ := assembly hK hlu hM
    have hadj := adjusted_iff hK hlu hM e
    rw [e] at e'
    cases e'
    rw [hpv] at e
    dsimp only
    rw [show assemble lu I.G dt (forces W S) d.surfacevol (quantities I S) S.trans S.gravcap d.pressure d.bhp S.porevol S.h = .ok (h', adj) from e, bind_ok]
    obtain ⟨k1, k2, k3⟩ := key h' adj hsh
    refine ⟨_, rfl, k1, k2, k3, ⟨assembled_congr hA (fun c _ => ?_) (fun c _ => ?_), ?_⟩⟩
    · unfold poreVolume; rw [(hr.rigid ha _).1, (hr.rigid ha _).1]; ring
    · rw [(hr.rigid ha _).2, mul_zero]
    · refine hadj.trans ⟨fun h => ⟨h.1, h.2, fun c _ => ?_⟩, fun h => ⟨h.1, h.2.1⟩⟩
      unfold poreVolume
      rw [(hr.rigid ha _).1, (hr.rigid ha _).1, (hr.rigid ha _).2]
      exact ⟨rfl, rfl⟩
  | some r =>
    have hpv : (args I W dt S d).porevol = S.initialPv := by unfold args; rw [ha]
    obtain ⟨rl, rv⟩ := hD.rock.rc (by rw [ha]; simp)
    obtain ⟨h', adj, e, hsh, hadj, hA⟩ := comprock_ok hK hlu hM (pv := S.porevol) (rc := S.rockComp) hD.rock.pvLen.ge rl.ge
    rw [hpv] at e
    dsimp only
    rw [show comprockAssemble lu I.G dt (forces W S) d.surfacevol (quantities I S) S.trans S.gravcap d.pressure d.bhp S.porevol S.initialPv S.rockComp S.h = .ok (h', adj) from e, bind_ok]
    obtain ⟨k1, k2, k3⟩ := key h' adj hsh
    refine ⟨_, rfl, k1, k2, k3, ⟨assembled_congr hA (fun c hc => ?_) (fun c hc => ?_), ?_⟩⟩
    · rw [hD.rock.pv c hc, porevol_at hr hB hD dt hc]
    · rw [hD.rock.pv c hc, rv c hc]
    · refine hadj.trans ⟨fun h => ⟨h.1, h.2.1, fun c hc => ?_⟩, fun h => ⟨h.1, h.2.1, fun c hc => ?_⟩⟩
      · have := h.2.2 c hc
        rwa [hD.rock.pv c hc, porevol_at hr hB hD dt hc, rv c hc] at this
      · have := h.2.2 c hc
        rwa [hD.rock.pv c hc, porevol_at hr hB hD dt hc, rv c hc]

/-! ## The iteration -/

theorem same_nw {W W0 : Option Wells.W} (h : SamePerfs W W0) : numWells W = numWells W0 := by
  cases W with
  | none => cases W0 with
    | none => rfl
    | some _ => exact h.elim
  | some V => cases W0 with
    | none => exact h.elim
    | some _ => exact h.1

theorem scratch_of {junk : Nat → Nat} {jd : Nat → Rat} {jc : Nat → Comp} {G : GridTopo} {W : Option Wells.W} {h : Data} (e : construct junk jd jc G W = .ok h) : h.scratch.length = G.nf := by
  unfold construct at e
  cases h1 : _root_.Opm.IfsTpfa.constructMatrix junk G W with
  | error x => rw [h1] at e; cases e
  | ok J =>
    rw [h1, bind_ok] at e
    cases W with
    | none => cases e; simp
    | some V =>
      dsimp only at e
      cases h2 : rd V.connpos V.nw with
      | error x => rw [h2] at e; cases e
      | ok n => rw [h2] at e; cases e; simp

theorem Ready.facts {I : Input} (hI : InputOk I) {W W0 : Option Wells.W} (hW : ∀ V, W = some V → WellsFit I V) (hs : SamePerfs W W0) {S : Solver} (hS : Ready I W0 S) :
    S.h.J.m = I.G.nc + numWells W0 ∧ S.h.sys.b.length = I.G.nc + numWells W0 ∧ S.h.scratch.length = I.G.nf := by
  obtain ⟨junk, jd, jc, h0, e, h⟩ := hS.data
  have hp : ∀ V0, W0 = some V0 → PerfsOk I.G V0 := by
    rintro V0 rfl
    cases W with
    | none => exact hs.elim
    | some V =>
      obtain ⟨h1, h2, h3⟩ := hs
      obtain ⟨p1, p2⟩ := (hW V rfl).perfs
      unfold numPerf at p2
      rw [h1, h2, h3] at *
      exact ⟨p1, p2⟩
  obtain ⟨h0', e', hd⟩ := construct_ok junk jd jc hI.valid hI.nonempty hp
  rw [e] at e'
  cases e'
  have hm : h0.J.m = I.G.nc + numWells W0 := by
    rw [hd.pat.m]
    cases W0 <;> rfl
  exact ⟨by rw [h.J, hm], by rw [h.b, hd.sys.2, hm], by rw [h.scratch, scratch_of e]⟩

theorem norm_le {S : Solver} {l : List Rat} {j : Nat} (h1 : j < S.inc.length) (h2 : j < l.length) : |l.getD j 0| ≤ norm S l := by
  refine IncompTpfa.infnorm_le _ _ ?_
  have : l.getD j 0 = l[j] := by simp [List.getD_eq_getElem?_getD, h2]
  rw [this]
  have h3 : j < (l.take S.inc.length).length := by rw [List.length_take]; omega
  have h4 : (l.take S.inc.length)[j] = l[j] := by simp
  rw [← h4]
  exact List.getElem_mem h3

theorem update_ok {I : Input} {W : Option Wells.W} {x : List Rat} {st : State} (hst : StateOk I W st) (hx : I.G.nc + numWells W ≤ x.length) :
    ∃ st', update I W x st = .ok st' ∧ StateOk I W st' ∧ SameFluids st st' ∧ ∀ j, j < I.G.nc + numWells W → unknowns I st' j = unknowns I st j + x.getD j 0 := by
  have hp := hst.pressure
  have hb : numWells W ≤ st.bhp.length := by
    cases W with
    | none => exact Nat.zero_le _
    | some V => exact (hst.wells V rfl).1.ge
  obtain ⟨p, e1, l1, v1⟩ := MiscUtil.loop_addAt (n := I.G.nc) (s := st.pressure) (f := fun c p => do
    let v ← rd x c
    addAt p c v) (fun c => c) (fun c => x.getD c 0) (by
      intro c t hc _
      rw [MiscUtil.rdD (by omega), bind_ok]) (fun c hc => by omega)
  obtain ⟨b, e2, l2, v2⟩ := MiscUtil.loop_addAt (n := numWells W) (s := st.bhp) (f := fun w b => do
    let v ← rd x (I.G.nc + w)
    addAt b w v) (fun c => c) (fun w => x.getD (I.G.nc + w) 0) (by
      intro c t hc _
      rw [MiscUtil.rdD (by omega), bind_ok]) (fun c hc => by omega)
  refine ⟨{ st with pressure := p, bhp := b }, ?_, ⟨by rw [l1, hp], hst.surfacevol, hst.saturation, hst.faceflux, hst.facepressure, fun V hV => ?_⟩, ⟨rfl, rfl⟩, fun j hj => ?_⟩
  · unfold update
    rw [e1, bind_ok, e2, bind_ok]
  · obtain ⟨a1, a2, a3⟩ := hst.wells V hV
    exact ⟨by rw [l2, a1], a2, a3⟩
  · unfold unknowns
    dsimp only
    by_cases hc : j < I.G.nc
    · rw [if_pos hc, if_pos hc, v1, Finset.sum_ite_eq, if_pos (Finset.mem_range.2 hc)]
    · rw [if_neg hc, if_neg hc, v2, Finset.sum_ite_eq, if_pos (Finset.mem_range.2 (by omega)), show I.G.nc + (j - I.G.nc) = j by omega]

/-- Why the iteration stopped. -/
inductive Ends (I : Input) (W : Option Wells.W) (ls : Data → List Rat) (n : Nat) (st : State) (inc : Rat) (d : State) (r : Iter) : Prop where
  | solved (hd : d = r.st) (hr : r.res ≤ I.residualTol) (hn : r.res = norm r.S r.S.h.sys.b)
  | small (hi : r.inc ≤ I.changeTol) (hx : ∀ j, j < I.G.nc + numWells W → unknowns I r.st j = unknowns I d j - (ls r.S.h).getD j 0 ∧ |unknowns I r.st j - unknowns I d j| ≤ I.changeTol)
  | out (hl : r.left = 0) (hd : d = r.st) (hn : r.res = norm r.S r.S.h.sys.b) (hi : (n = 0 ∧ r.inc = inc ∧ r.st = st) ∨ r.inc > I.changeTol)

/-- All that is known of the members when the system was assembled for `d`. -/
structure Good (I : Input) (W W0 : Option Wells.W) (m k : Rat → Rat) (dt : Rat) (st0 d : State) (S : Solver) : Prop where
  ready : Ready I W0 S
  begun : Begun I W m st0 S
  dyn : Dyn I W m k d S
  done : Done I W m k dt st0 d S
  state : StateOk I W d
  fluids : SameFluids st0 d

theorem step_ok {I : Input} (hI : InputOk I) {lu : Lapack} (hlu : LapackOk lu) {m k : Rat → Rat} (hr : RockIs I m k) {W W0 : Option Wells.W} (hW : ∀ V, W = some V → WellsFit I V)
    (hs : SamePerfs W W0) {st0 st : State} {S : Solver} (hS : Ready I W0 S) (hB : Begun I W m st0 S) (hst : StateOk I W st) (hf : SameFluids st0 st) (dt : Rat) :
    ∃ S1 S2, perIteration I W st S = .ok S1 ∧ assembleStep lu I W dt st S1 = .ok S2 ∧ Good I W W0 m k dt st0 st S2 := by
  obtain ⟨S1, e1, a1, a2, a3⟩ := perIteration_ok hI hr hW hst hS hB
  obtain ⟨S2, e2, b1, b2, b3, b4⟩ := assembleStep_ok hI hlu hr hW hs a1 a2 a3 hst dt
  exact ⟨S1, S2, e1, e2, b1, b2, b3, b4, hst, hf⟩

theorem newton_ok {I : Input} (hI : InputOk I) {lu : Lapack} (hlu : LapackOk lu) {ls : Data → List Rat} (hls : ∀ h, (ls h).length = h.J.m) {m k : Rat → Rat} (hr : RockIs I m k)
    {W W0 : Option Wells.W} (hW : ∀ V, W = some V → WellsFit I V) (hs : SamePerfs W W0) {st0 : State} (dt : Rat) :
    ∀ n S st inc, Good I W W0 m k dt st0 st S →
      ∃ r, newton lu ls I W dt n S st (norm S S.h.sys.b) inc = .ok r ∧ ∃ d, Good I W W0 m k dt st0 d r.S ∧ StateOk I W r.st ∧ SameFluids st0 r.st ∧ Ends I W ls n st inc d r := by
  intro n
  induction n with
  | zero =>
    intro S st inc hG
    exact ⟨_, rfl, st, hG, hG.state, hG.fluids, .out rfl rfl rfl (.inl ⟨rfl, rfl, rfl⟩)⟩
  | succ n ih =>
    intro S st inc hG
    unfold newton
    by_cases hres : norm S S.h.sys.b > I.residualTol
    · rw [if_pos hres]
      dsimp only
      obtain ⟨f1, f2, _⟩ := hG.ready.facts hI hW hs
      have hlen : ((ls S.h).map (fun v => -v)).length = I.G.nc + numWells W0 := by rw [List.length_map, hls, f1]
      have hnw := same_nw hs
      obtain ⟨st', e1, u1, u2, u3⟩ := update_ok (W := W) (x := (ls S.h).map (fun v => -v)) hG.state (by rw [hlen, hnw])
      have hfl : SameFluids st0 st' := ⟨u2.1.trans hG.fluids.1, u2.2.trans hG.fluids.2⟩
      have hneg : ∀ j, j < I.G.nc + numWells W → ((ls S.h).map (fun v => -v)).getD j 0 = -(ls S.h).getD j 0 := by
        intro j hj
        rw [List.getD_eq_getElem?_getD, List.getD_eq_getElem?_getD, List.getElem?_map]
        have : j < (ls S.h).length := by rw [hls, f1, ← hnw]; exact hj
        rw [List.getElem?_eq_getElem this]
        rfl
      have hready : Ready I W0 { S with inc := (ls S.h).map (fun v => -v) } := by
        obtain ⟨⟨a, b, c, d, e⟩, g, _⟩ := hG.ready
        exact ⟨⟨a, b, c, d, e⟩, g, hlen⟩
      have hbegun : Begun I W m st0 { S with inc := (ls S.h).map (fun v => -v) } := ⟨hG.begun.1, hG.begun.2⟩
      rw [e1, bind_ok]
      by_cases hinc : norm { S with inc := (ls S.h).map (fun v => -v) } ((ls S.h).map (fun v => -v)) ≤ I.changeTol
      · rw [if_pos hinc]
        refine ⟨_, rfl, st, ⟨hready, hbegun, ?_, ⟨hG.done.1, hG.done.2⟩, hG.state, hG.fluids⟩, u1, hfl, .small hinc fun j hj => ?_⟩
        · obtain ⟨c, a2, a3, a4, a5, a6, a7⟩ := hG.dyn
          exact ⟨⟨c.1, c.2, c.3, c.4, c.5, c.6⟩, a2, a3, a4, a5, a6, a7⟩
        · dsimp only
          have := norm_le (S := { S with inc := (ls S.h).map (fun v => -v) }) (l := (ls S.h).map (fun v => -v)) (j := j) (by dsimp only; rw [hlen, ← hnw]; exact hj) (by rw [hlen, ← hnw]; exact hj)
          rw [u3 j hj]
          refine ⟨by rw [hneg j hj]; ring, ?_⟩
          rw [add_sub_cancel_left]
          exact le_trans this hinc
      · rw [if_neg hinc]
        obtain ⟨S1, S2, e2, e3, hG'⟩ := step_ok hI hlu hr hW hs hready hbegun u1 hfl dt
        rw [e2, bind_ok, e3, bind_ok]
        obtain ⟨r, e4, d, g1, g2, g3, g4⟩ := ih S2 st' (norm { S with inc := (ls S.h).map (fun v => -v) } ((ls S.h).map (fun v => -v))) hG'
        refine ⟨r, e4, d, g1, g2, g3, ?_⟩
        cases g4 with
        | solved a b c => exact .solved a b c
        | small a b => exact .small a b
        | out a b c h =>
          refine .out a b c (.inr ?_)
          rcases h with ⟨_, h, _⟩ | h
          · rw [h]; exact not_le.1 hinc
          · exact h
    · rw [if_neg hres]
      exact ⟨_, rfl, st, hG, hG.state, hG.fluids, .solved rfl (not_lt.1 hres) rfl⟩

/-! ## Results -/

theorem halfSum_two {G : GridTopo} (hv : G.Valid) (v : Nat → Nat → Rat) {f a b i1 i2 : Nat} (hs : G.Sides f a b) (h1 : G.HalfFace a f i1) (h2 : G.HalfFace b f i2) :
    halfSum G v f = v a i1 + v b i2 := by
  have := Trans.resistance_two hv (fun c i => 1 / v c i) hs h1 h2
  unfold Trans.resistance at this
  simp only [one_div_one_div] at this
  rw [← this]
  unfold halfSum
  exact Finset.sum_congr rfl fun c _ => Finset.sum_congr rfl fun i _ => by simp only [eq_comm]

theorem halfSum_one {G : GridTopo} (hv : G.Valid) (v : Nat → Nat → Rat) {f c i : Nat} (hs : G.Sides f c (-1) ∨ G.Sides f (-1) c) (h : G.HalfFace c f i) : halfSum G v f = v c i := by
  have := Trans.resistance_one hv (fun c i => 1 / v c i) hs h
  unfold Trans.resistance at this
  simp only [one_div_one_div] at this
  rw [← this]
  unfold halfSum
  exact Finset.sum_congr rfl fun c _ => Finset.sum_congr rfl fun i _ => by simp only [eq_comm]

theorem one_half {G : GridTopo} (hv : G.Valid) {f c : Nat} (hs : G.Sides f c (-1) ∨ G.Sides f (-1) c) : ∃ i, G.HalfFace c f i := by
  rcases hs with hs | hs
  · exact Trans.exists_half hv hs (.inl rfl)
  · exact Trans.exists_half hv hs (.inr rfl)

theorem perfPressures_ok {W : Option Wells.W} {S : Solver} {bhp pp : List Rat}
    (h : ∀ V, W = some V → RowPos V.nw V.connpos ∧ S.wdp.length = numPerf V ∧ bhp.length = V.nw ∧ pp.length = numPerf V) :
    ∃ a, perfPressures W S bhp pp = .ok a ∧ a.length = pp.length ∧
      ∀ V, W = some V → ∀ w k, w < V.nw → V.connpos.getD w 0 ≤ k → k < V.connpos.getD (w + 1) 0 → a.getD k 0 = bhp.getD w 0 + S.wdp.getD k 0 := by
  cases W with
  | none => exact ⟨_, rfl, rfl, fun V h => by cases h⟩
  | some V =>
    obtain ⟨hp, h1, h2, h3⟩ := h V rfl
    unfold perfPressures
    dsimp only
    obtain ⟨t, e, l, v⟩ := rowLoop_inv hp (s := pp) (f := fun w j a => do
      let b ← rd bhp w
      let d ← rd S.wdp j
      wr a j (b + d)) (fun _ i t => t.length = pp.length ∧ ∀ w k, w < V.nw → V.connpos.getD w 0 ≤ k → k < V.connpos.getD (w + 1) 0 → k < i → t.getD k 0 = bhp.getD w 0 + S.wdp.getD k 0)
      ⟨rfl, fun w k _ _ _ h => absurd h (by omega)⟩
      (by
        rintro w k t hw g1 g2 ⟨hlen, ht⟩
        have hk : k < numPerf V := hp.lt_total hw g2
        rw [rd_getD (d := 0) (by omega), bind_ok, rd_getD (d := 0) (by omega), bind_ok, wr_ok (by omega)]
        refine ⟨_, rfl, by simp [hlen], fun w' k' hw' g1' g2' hlt' => ?_⟩
        rw [getD_set_list (by omega)]
        by_cases hkk : k' = k
        · subst hkk
          obtain rfl : w' = w := hp.row_unique hw' hw g1' g2' g1 g2
          rw [if_pos rfl]
        · rw [if_neg hkk]
          exact ht w' k' hw' g1' g2' (by omega))
      (fun w t _ ht => ht)
    exact ⟨t, e, l, fun V' hV w k hw g1 g2 => by cases hV; exact v w k hw g1 g2 (hp.lt_total hw g2)⟩

theorem results_ok {I : Input} (hI : InputOk I) {m k : Rat → Rat} {W W0 : Option Wells.W} (hW : ∀ V, W = some V → WellsFit I V) (hs : SamePerfs W W0) {st0 d st : State} {S : Solver} {dt : Rat}
    (hG : Good I W W0 m k dt st0 d S) (hst : StateOk I W st) (hf : SameFluids st0 st) (hfl : Flows I st0) :
    ∃ S' st', results I W S st = .ok (S', st') ∧ Ready I W0 S' ∧ S'.singular = S.singular ∧ StateOk I W st' ∧ st'.pressure = st.pressure ∧ st'.bhp = st.bhp ∧
      Results I W st0 d st' (args I W dt S d) := by
  have hK := args_ok hI hW hG.ready hG.begun hG.dyn hst dt
  have hout : ∀ f, f < I.G.nf → ¬ I.G.Interior f → ∃ c : Nat, I.G.Sides f c (-1) ∨ I.G.Sides f (-1) c := by
    intro f hf hn
    obtain ⟨a, b, hsd⟩ := hI.valid.sides hf
    rcases Trans.side_cases hI.valid hsd (by rintro ⟨rfl, rfl⟩; exact hI.sided f hf hsd) with ⟨c1, c2, h⟩ | h
    · exact absurd ⟨c1, c2, h⟩ hn
    · exact h
  have hmob : ∀ f, f < (args I W dt S st).G.nf → ¬ (args I W dt S st).G.Interior f → ∑ p ∈ Finset.range (args I W dt S st).cq.np, ent (args I W dt S st).cq.phasemobf (args I W dt S st).cq.np f p ≠ 0 := by
    intro f hf' hn
    obtain ⟨c, hc⟩ := hout f hf' hn
    have hcl : c < I.G.nc := by
      rcases hc with hc | hc
      · rcases (hI.valid.side_range hc).1 with h | h <;> omega
      · rcases (hI.valid.side_range hc).2 with h | h <;> omega
    have := hfl c (d.pressure.getD c 0) hcl
    refine fun h0 => this (Eq.trans ?_ h0)
    refine Finset.sum_congr rfl fun p hp => ?_
    have h1 : S.faceMob.getD (f * I.fluid.np + p) 0 = mobilityAt I d c p := (hG.dyn.face f hf').outer c hc p (Finset.mem_range.1 hp)
    show _ = S.faceMob.getD (f * I.fluid.np + p) 0
    rw [h1]
    unfold mobilityAt
    rw [hG.fluids.1, hG.fluids.2]
  have hint : ∀ f, f < I.G.nf → (Int2 I.G f ↔ I.G.Interior f) := by
    intro f hf
    obtain ⟨a, b, hs⟩ := hI.valid.sides hf
    unfold Int2
    rw [getD_of_getElem? hs.1, getD_of_getElem? hs.2]
    constructor
    · rintro ⟨h1, h2⟩
      refine ⟨a.toNat, b.toNat, ?_⟩
      rw [Int.toNat_of_nonneg h1, Int.toNat_of_nonneg h2]
      exact hs
    · rintro ⟨x, y, h⟩
      obtain ⟨rfl, rfl⟩ := GridTopo.Sides.unique hs h
      omega
  obtain ⟨q, e1, l1, v1⟩ := computeFlux_ok hK (fflux := st.faceflux) hst.faceflux.ge (fun f hf' hn => hmob f hf' (fun h => hn ((hint f hf').2 h)))
  have e1' : computeFlux I.G I.fluid.np S.trans S.faceMob S.gravcap st.pressure st.faceflux = .ok q := e1
  -- rates of perforations
  have hrates : ∃ pr, flux I.G (forces W S) I.fluid.np S.trans S.cellMob S.faceMob S.gravcap st.pressure (ptr st.bhp) st.faceflux (ptr st.perfRates) = .ok (q, pr) ∧
      (pr.getD st.perfRates).length = st.perfRates.length ∧
      ∀ V, W = some V → ∀ w k, w < V.nw → V.connpos.getD w 0 ≤ k → k < V.connpos.getD (w + 1) 0 →
        (0 < st.bhp.getD w 0 + S.wdp.getD k 0 - st.pressure.getD (perfCell V k) 0 →
          (pr.getD st.perfRates).getD k 0 = ∑ p ∈ Finset.range I.fluid.np, perfVel (args I W dt S d) V ⟨S.wdp, S.perfA, S.perfMob⟩ (unknowns I st) 1 w k p) ∧
        (st.bhp.getD w 0 + S.wdp.getD k 0 - st.pressure.getD (perfCell V k) 0 ≤ 0 → (pr.getD st.perfRates).getD k 0 =
          V.wi.getD k 0 * (∑ p ∈ Finset.range I.fluid.np, mobilityAt I d (perfCell V k) p) * (st.bhp.getD w 0 + S.wdp.getD k 0 - st.pressure.getD (perfCell V k) 0)) := by
    unfold flux
    rw [e1', bind_ok]
    cases W with
    | none =>
      refine ⟨ptr st.perfRates, rfl, ?_, fun V h => by (cases h)⟩
      unfold ptr
      split <;> rfl
    | some V =>
      obtain ⟨b1, b2, b3⟩ := hst.wells V rfl
      have hpp := (hW V rfl).perfs.pos
      by_cases hb : st.bhp.isEmpty
      · have hnw : V.nw = 0 := by rw [← b1, List.isEmpty_iff.1 hb]; rfl
        have hp1 : ptr st.bhp = none := if_pos hb
        rw [hp1]
        refine ⟨ptr st.perfRates, rfl, ?_, fun V' h w k hw => ?_⟩
        · unfold ptr
          split <;> rfl
        · cases h
          omega
      · have hp1 : ptr st.bhp = some st.bhp := if_neg hb
        rw [hp1]
        by_cases hr : st.perfRates.isEmpty
        · have hnp : numPerf V = 0 := by rw [← b2, List.isEmpty_iff.1 hr]; rfl
          have hp2 : ptr st.perfRates = none := if_pos hr
          rw [hp2]
          refine ⟨none, rfl, rfl, fun V' h w k hw g1 g2 => ?_⟩
          cases h
          have : k < numPerf V := hpp.lt_total hw g2
          omega
        · have hp2 : ptr st.perfRates = some st.perfRates := if_neg hr
          rw [hp2]
          have hWok := hK.wells V ⟨S.wdp, S.perfA, S.perfMob⟩ rfl
          obtain ⟨wq, e2, l2, _⟩ := computeWflux_ok hK hWok (pmobc := S.cellMob) (wflux := st.perfRates) hG.dyn.cells.mobLen.ge b2.ge
          obtain ⟨wq', e2', v2⟩ := perf_rates_partial hK hWok (pmobc := S.cellMob) (wflux := st.perfRates) hG.dyn.cells.mobLen.ge b2.ge
          rw [e2] at e2'
          cases e2'
          have e2'' : computeWflux I.fluid.np V ⟨S.wdp, S.perfA, S.perfMob⟩ S.cellMob st.pressure st.bhp st.perfRates = .ok wq := e2
          show ∃ pr, (do
            let wf ← computeWflux I.fluid.np V ⟨S.wdp, S.perfA, S.perfMob⟩ S.cellMob st.pressure st.bhp st.perfRates
            .ok (q, some wf)) = .ok (q, pr) ∧ _
          rw [e2'', bind_ok]
          refine ⟨some wq, rfl, l2, fun V' h w k hw g1 g2 => ?_⟩
          cases h
          have hk : k < numPerf V := hpp.lt_total hw g2
          obtain ⟨_, hcl⟩ := fit_cell (hW V rfl) hk
          obtain ⟨r1, r2⟩ := v2 w k hw g1 g2
          have q1 : given (args I (some V) dt S st) ((args I (some V) dt S st).G.nc + w) = st.bhp.getD w 0 := by
            show (if I.G.nc + w < I.G.nc then _ else st.bhp.getD (I.G.nc + w - I.G.nc) 0) = _
            rw [if_neg (by omega), Nat.add_sub_cancel_left]
          have q2 : given (args I (some V) dt S st) (perfCell V k) = st.pressure.getD (perfCell V k) 0 := by
            show (if perfCell V k < I.G.nc then st.pressure.getD (perfCell V k) 0 else _) = _
            rw [if_pos hcl]
          rw [q1, q2] at r1 r2
          refine ⟨r1, fun h => ?_⟩
          show wq.getD k 0 = _
          rw [r2 h]
          congr 2
          exact Finset.sum_congr rfl fun p hp => hG.dyn.cells.mob _ _ hcl (Finset.mem_range.1 hp)
  obtain ⟨pr, e2, l2, v2⟩ := hrates
  obtain ⟨f1, f2, f3⟩ := hG.ready.facts hI hW hs
  have hht := hG.ready.static.ht
  have htwo : ∀ (f a b : Nat), I.G.Sides f a b → halfSum I.G (fun _ i => S.htrans.getD i 0) f = halfTrans I a f + halfTrans I b f ∧
      halfSum I.G (fun c i => S.htrans.getD i 0 * st.pressure.getD c 0) f = halfTrans I a f * st.pressure.getD a 0 + halfTrans I b f * st.pressure.getD b 0 ∧
      0 < halfTrans I a f + halfTrans I b f := by
    intro f a b hsd
    obtain ⟨i1, h1⟩ := Trans.exists_half hI.valid hsd (.inl rfl)
    obtain ⟨i2, h2⟩ := Trans.exists_half hI.valid hsd (.inr rfl)
    rw [halfSum_two hI.valid _ hsd h1 h2, halfSum_two hI.valid _ hsd h1 h2]
    rw [hht _ _ _ h1, hht _ _ _ h2]
    exact ⟨rfl, rfl, add_pos (halfTrans_pos hI h1) (halfTrans_pos hI h2)⟩
  have hone : ∀ f c : Nat, I.G.Sides f c (-1) ∨ I.G.Sides f (-1) c → halfSum I.G (fun _ i => S.htrans.getD i 0) f = halfTrans I c f ∧
      halfSum I.G (fun c i => S.htrans.getD i 0 * st.pressure.getD c 0) f = halfTrans I c f * st.pressure.getD c 0 ∧ 0 < halfTrans I c f := by
    intro f c hsd
    obtain ⟨i1, h1⟩ := one_half hI.valid hsd
    rw [halfSum_one hI.valid _ hsd h1, halfSum_one hI.valid _ hsd h1]
    rw [hht _ _ _ h1]
    exact ⟨rfl, rfl, halfTrans_pos hI h1⟩
  obtain ⟨fp, h', e3, l3, v3, hsh⟩ := fpress_ok hI.valid hI.first (htrans := S.htrans) (cpress := st.pressure) (fp := st.facepressure) (d := S.h) hG.ready.static.htLen hst.pressure.ge
    hst.facepressure f3 (fun f hf' => by
      by_cases hn : I.G.Interior f
      · obtain ⟨a, b, hsd⟩ := hn
        obtain ⟨h1, _, h3⟩ := htwo f a b hsd
        rw [h1]
        exact ne_of_gt h3
      · obtain ⟨c, hc⟩ := hout f hf' hn
        obtain ⟨h1, _, h3⟩ := hone f c hc
        rw [h1]
        exact ne_of_gt h3)
  obtain ⟨pp, e4, l4, v4⟩ := perfPressures_ok (W := W) (S := S) (bhp := st.bhp) (pp := st.perfPress) (fun V hV =>
    ⟨(hW V hV).perfs.pos, (hG.begun.wdp V hV).1, (hst.wells V hV).1, (hst.wells V hV).2.2⟩)
  unfold results
  rw [e2, bind_ok, e3, bind_ok, e4, bind_ok]
  refine ⟨_, _, rfl, ?_, rfl, ?_, rfl, rfl, ?_⟩
  · obtain ⟨⟨a, b, c, d, e⟩, ⟨junk, jd, jc, h0, g1, g2⟩, i⟩ := hG.ready
    exact ⟨⟨a, b, c, d, e⟩, ⟨junk, jd, jc, h0, g1, shape_trans g2 hsh⟩, i⟩
  · refine ⟨hst.pressure, hst.surfacevol, hst.saturation, l1.trans hst.faceflux, l3, fun V hV => ?_⟩
    obtain ⟨b1, b2, b3⟩ := hst.wells V hV
    exact ⟨b1, l2.trans b2, l4.trans b3⟩
  · refine ⟨hf, fun f hf' => ⟨fun hi => ?_, fun hi => ?_⟩, fun f hf' => ⟨fun a b hsd => ?_, fun c hc => ?_⟩, fun V hV => ?_⟩
    · dsimp only
      rw [v1 f hf']
      exact if_pos ((hint f hf').2 hi)
    · dsimp only
      rw [v1 f hf']
      exact if_neg (fun h => hi ((hint f hf').1 h))
    · obtain ⟨h1, h2, h3⟩ := htwo f a b hsd
      dsimp only
      rw [v3 f hf', h1, h2, div_mul_cancel₀ _ (ne_of_gt h3)]
    · obtain ⟨h1, h2, h3⟩ := hone f c hc
      dsimp only
      rw [v3 f hf', h1, h2, mul_div_cancel_left₀ _ (ne_of_gt h3)]
    · subst hV
      refine ⟨⟨S.wdp, S.perfA, S.perfMob⟩, rfl, fun w k hw g1 g2 => ?_⟩
      have hpp := v4 V rfl w k hw g1 g2
      have hwd := (hG.begun.wdp V rfl).2 w k hw g1 g2
      obtain ⟨r1, r2⟩ := v2 V rfl w k hw g1 g2
      dsimp only
      rw [hpp]
      exact ⟨by rw [hwd], fun h => r1 (by linarith), fun h => r2 (by linarith)⟩

theorem infnorm_gt {t : Rat} : ∀ l : List Rat, t < IncompTpfa.infnorm l → t < 0 ∨ ∃ x ∈ l, t < |x| := by
  have key : ∀ (l : List Rat) (a : Rat), t < l.foldl (fun norm x => max norm |x|) a → t < a ∨ ∃ x ∈ l, t < |x| := by
    intro l
    induction l with
    | nil => exact fun a h => .inl h
    | cons y l ih =>
      intro a h
      rcases ih _ h with h | ⟨x, hx, h⟩
      · rcases lt_max_iff.1 h with h | h
        · exact .inl h
        · exact .inr ⟨y, by simp, h⟩
      · exact .inr ⟨x, by simp [hx], h⟩
  exact fun l => key l 0

theorem norm_gt {S : Solver} {l : List Rat} {t : Rat} (h0 : 0 < l.length) (hl : S.inc.length = l.length) (h : t < norm S l) : ∃ j, j < l.length ∧ t < |l.getD j 0| := by
  rcases infnorm_gt _ h with h | ⟨x, hx, h⟩
  · exact ⟨0, h0, lt_of_lt_of_le h (abs_nonneg _)⟩
  · rw [hl, List.take_length] at hx
    obtain ⟨j, hj, rfl⟩ := List.mem_iff_getElem.1 hx
    exact ⟨j, hj, by rw [List.getD_eq_getElem?_getD, List.getElem?_eq_getElem hj]; exact h⟩

/-- A call: it throws, or returns as specified. -/
theorem solve_core {I : Input} (hI : InputOk I) {lu : Lapack} (hlu : LapackOk lu) {ls : Data → List Rat} (hls : ∀ h, (ls h).length = h.J.m) {m k : Rat → Rat} (hr : RockIs I m k)
    {W W0 : Option Wells.W} (hW : ∀ V, W = some V → WellsFit I V) (hs : SamePerfs W W0) {st : State} (hst : StateOk I W st) (hfl : Flows I st) (dt : Rat) {S : Solver} (hS : Ready I W0 S) :
    (solve lu ls I W dt S st = .error .thrown ∧ (0 < I.maxiter ∨ I.changeTol < 0) ∧ Failed I W m k dt st) ∨ ∃ S' st', solve lu ls I W dt S st = .ok (S', st') ∧ Ready I W0 S' ∧ StateOk I W st' ∧
      ∃ d K, Current I W m dt st d K ∧ SameFluids st d ∧ Results I W st d st' K ∧ Accepted I W m k ls st d st' K S'.singular ∧ (S'.singular = true ↔ Loose I m k st d K) ∧
        (I.maxiter ≤ 0 → st'.pressure = st.pressure ∧ st'.bhp = st.bhp) := by
  obtain ⟨S1, e1, a1, a2⟩ := perSolve_ok hI hr hW hst hS
  obtain ⟨S2, S3, e2, e3, hG⟩ := step_ok hI hlu hr hW hs a1 a2 hst ⟨rfl, rfl⟩ dt
  obtain ⟨r, e4, d, g1, g2, g3, g4⟩ := newton_ok hI hlu hls hr hW hs dt I.maxiter.toNat S3 st 0 hG
  unfold solve
  rw [e1, bind_ok, e2, bind_ok, e3, bind_ok, e4, bind_ok]
  by_cases hx : r.left = 0 ∧ 0 ≤ I.maxiter ∧ r.res > I.residualTol ∧ r.inc > I.changeTol
  · rw [if_pos hx]
    refine .inl ⟨rfl, ?_, d, args I W dt r.S d, r.S.h, r.S.singular, current_ok hr hW g1.ready g1.begun g1.dyn hI.valid dt, g1.done.asm, ?_⟩
    · by_contra hc
      rw [not_or, not_lt, not_lt] at hc
      have hn0 : I.maxiter.toNat = 0 := by omega
      rw [hn0] at e4
      unfold newton at e4
      have h3 : r.inc = 0 := by cases e4; rfl
      rw [h3] at hx
      exact absurd hx.2.2.2 (not_lt.2 hc.2)
    · obtain ⟨f1, f2, f3⟩ := g1.ready.facts hI hW hs
      have hnc := hI.nonempty
      have hn : r.res = norm r.S r.S.h.sys.b := by
        cases g4 with
        | solved _ h _ => exact absurd h (not_le.2 hx.2.2.1)
        | small h _ => exact absurd h (not_le.2 hx.2.2.2)
        | out _ _ h _ => exact h
      have hgt := hx.2.2.1
      rw [hn] at hgt
      obtain ⟨j, hj, h⟩ := norm_gt (by rw [f2]; omega) (by rw [g1.ready.inc, f2]) hgt
      exact ⟨j, by rw [same_nw hs, ← f2]; exact hj, h⟩
  · rw [if_neg hx]
    right
    obtain ⟨S', st', e5, b1, b2, b3, b4, b5, b6⟩ := results_ok hI hW hs g1 g2 g3 hfl
    refine ⟨S', st', e5, b1, b3, d, args I W dt r.S d, current_ok hr hW g1.ready g1.begun g1.dyn hI.valid dt, g1.fluids, b6, ?_, by rw [b2]; exact g1.done.sing, fun hm => ?_⟩
    swap
    · have hn0 : I.maxiter.toNat = 0 := by omega
      rw [hn0] at e4
      unfold newton at e4
      have h3 : r.st = st := by cases e4; rfl
      exact ⟨by rw [b4, h3], by rw [b5, h3]⟩
    have hunk : unknowns I st' = unknowns I r.st := by
      funext j
      unfold unknowns
      rw [b4, b5]
    obtain ⟨f1, f2, f3⟩ := g1.ready.facts hI hW hs
    have hinc := g1.ready.inc
    have hnw := same_nw hs
    have hsolved : d = r.st → r.res ≤ I.residualTol → r.res = norm r.S r.S.h.sys.b → Accepted I W m k ls st d st' (args I W dt r.S d) S'.singular := by
      intro hd hres hn
      rw [hn] at hres
      have hle : ∀ j, j < I.G.nc + numWells W → |res r.S.h j| ≤ I.residualTol := fun j hj =>
        le_trans (norm_le (S := r.S) (l := r.S.h.sys.b) (by rw [hinc, ← hnw]; exact hj) (by rw [f2, ← hnw]; exact hj)) hres
      refine .residual ⟨by rw [hd, b4], by rw [hd, b5]⟩ (fun c u hc hu => ?_) (fun V D hV w md hw hmd => ?_)
      · have := hle c (by omega)
        rw [g1.done.asm.cell_res c u hc hu, porevol_at hr g1.begun g1.dyn dt hc] at this
        have hz : srcVol (args I W dt r.S d) c = 0 := rfl
        rw [hz] at this
        rw [b4, ← hd]
        have e : poreVolume I m c (d.pressure.getD c 0) - ∑ i ∈ Finset.range I.fluid.np, u i =
          poreVolume I m c (st.pressure.getD c 0) - ∑ i ∈ Finset.range (args I W dt r.S d).cq.np, u i - (args I W dt r.S d).dt * 0 + (poreVolume I m c (d.pressure.getD c 0) - poreVolume I m c (st.pressure.getD c 0)) := by
          show _ = poreVolume I m c (st.pressure.getD c 0) - ∑ i ∈ Finset.range I.fluid.np, u i - _ * 0 + _
          ring
        rw [e]
        exact this
      · have hWV : W = some V := (args_wells hV).1
        have := hle (I.G.nc + w) (by rw [hWV]; show I.G.nc + w < I.G.nc + V.nw; omega)
        rw [show res r.S.h (I.G.nc + w) = wellRes (args I W dt r.S d) V D w md from g1.done.asm.well_res V D hV w md hw hmd] at this
        exact this
    cases g4 with
    | solved hd hres hn => exact hsolved hd hres hn
    | small hi hxx =>
      refine .change r.S.h (by rw [b2]; exact g1.done.asm) (fun j hj => ?_)
      rw [hunk]
      exact hxx j hj
    | out hl hd hn hi =>
      by_cases hres : r.res ≤ I.residualTol
      · exact hsolved hd hres hn
      · have h0 : ¬ (0 ≤ I.maxiter ∧ r.inc > I.changeTol) := fun h => hx ⟨hl, h.1, not_le.1 hres, h.2⟩
        rcases hi with ⟨h1, h2, h3⟩ | h
        · refine .idle ?_ ⟨by rw [hd, h3], by rw [hd, h3], by rw [b4, h3], by rw [b5, h3]⟩
          omega
        · have : I.maxiter < 0 := by
            by_contra hc
            exact h0 ⟨not_lt.1 hc, h⟩
          have hn0 : I.maxiter.toNat = 0 := by omega
          rw [hn0] at e4
          unfold newton at e4
          have h3 : r.st = st := by cases e4; rfl
          exact .idle (by omega) ⟨by rw [hd, h3], by rw [hd, h3], by rw [b4, h3], by rw [b5, h3]⟩

end Opm.CompressibleTpfa
