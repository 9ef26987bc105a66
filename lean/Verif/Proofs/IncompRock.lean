import Verif.Proofs.IncompTpfa
/-!
# The pressure solver with rock compressibility: helper lemmas
-/

namespace Opm.IncompTpfa
open Opm Opm.IfsTpfa Opm.Rock

theorem copyTo_ok {l a : List Rat} {o : Nat} (h : o + l.length ≤ a.length) : ∃ a', copyTo l o a = .ok a' ∧ a'.length = a.length ∧ (∀ i, i < l.length → a'.getD (o + i) 0 = l.getD i 0) ∧
    ∀ k, k < o → a'.getD k 0 = a.getD k 0 := by
  unfold copyTo
  obtain ⟨a', e, h1, h2, h3⟩ := loop_inv (n := l.length) (s := a) (f := fun i a => do
      let v ← rd l i
      wr a (o + i) v) (fun n b => b.length = a.length ∧ (∀ i, i < n → b.getD (o + i) 0 = l.getD i 0) ∧ ∀ k, k < o → b.getD k 0 = a.getD k 0)
    ⟨rfl, fun i hi => absurd hi (Nat.not_lt_zero _), fun _ _ => rfl⟩ (by
      rintro n b hn ⟨h1, h2, h3⟩
      have hb : o + n < b.length := by omega
      rw [MiscUtil.rdD hn, bind_ok, wr_ok hb]
      refine ⟨_, rfl, by simp [h1], fun i hi => ?_, fun k hk => ?_⟩
      · rw [getD_set hb]
        by_cases he : i = n
        · rw [if_pos (by omega), he]
        · rw [if_neg (by omega), h2 i (by omega)]
      · rw [getD_set hb, if_neg (by omega), h3 k hk])
  exact ⟨a', e, h1, h2, h3⟩

/-- Cell pressures, then pressures of wells. -/
def unknowns (I : Input) (st : State) (k : Nat) : Rat := if k < I.G.nc then st.pressure.getD k 0 else st.bhp.getD (k - I.G.nc) 0

/-- Sizes of a state during the iteration. -/
structure Sizes (I : Input) (W : Option Wells.W) (st : State) : Prop where
  pressure : st.pressure.length = I.G.nc
  bhp : st.bhp.length = numWells W

theorem join_ok {I : Input} {W : Option Wells.W} {st : State} (hst : Sizes I W st) {a : List Rat} (ha : a.length = I.G.nc + numWells W) :
    ∃ x a', copyTo st.pressure 0 a = .ok x ∧ copyTo st.bhp I.G.nc x = .ok a' ∧ a'.length = a.length ∧ ∀ k, k < I.G.nc + numWells W → a'.getD k 0 = unknowns I st k := by
  have hp := hst.pressure
  have hb := hst.bhp
  obtain ⟨x, e1, l1, v1, _⟩ := copyTo_ok (l := st.pressure) (o := 0) (a := a) (by omega)
  obtain ⟨y, e2, l2, v2, w2⟩ := copyTo_ok (l := st.bhp) (o := I.G.nc) (a := x) (by omega)
  refine ⟨x, y, e1, e2, by omega, fun k hk => ?_⟩
  unfold unknowns
  by_cases hc : k < I.G.nc
  · rw [if_pos hc, w2 k hc]
    have := v1 k (by omega)
    rwa [Nat.zero_add] at this
  · rw [if_neg hc]
    have := v2 (k - I.G.nc) (by omega)
    rwa [show I.G.nc + (k - I.G.nc) = k by omega] at this

/-- The members during the iteration, compared to those before it. -/
structure Like (I : Input) (W : Option Wells.W) (S1 S : Solver) : Prop where
  eq : ∃ pv rc ps h, S = { S1 with porevol := pv, rockComp := rc, pressures := ps, h := h }
  shape : SameShape S1.h S.h
  rock : S.rockComp.length = I.G.nc
  press : S.pressures.length = I.G.nc + numWells W

/-- The assembled system is the Newton system at the pressures of `st`. -/
structure At (I : Input) (W : Option Wells.W) (mode : Nat → WellMode) (m k : Rat → Rat) (dt : Rat) (S1 S : Solver) (st : State) : Prop where
  like : Like I W S1 S
  grav : GravOk I.G S1.gpressOmega S.h.fgrav
  eqs : ∀ x r, r < I.G.nc ∨ (∃ V, W = some V ∧ r < I.G.nc + V.nw) → Res S1.h.A ⟨S.h.sa, S.h.b⟩ (x, r) =
    balance I.G (forces I W S1) mode S1.trans S.h.fgrav (fun j => unknowns I st j + x j, r) -
      if r < I.G.nc then (poreVolume I m r (st.pressure.getD r 0) - S1.initialPv.getD r 0) / dt + poreVolume I m r (st.pressure.getD r 0) * k (st.pressure.getD r 0) / dt * x r else 0

theorem rockPart_ok {I : Input} {r : RockComp} {m k : Rat → Rat} (hr : RockOk I r m k) (ha : r.isActive = true) {p a : List Rat} (hp : p.length = I.G.nc) (hl : a.length = I.G.nc) :
    ∃ a', rockPart I r p a = .ok a' ∧ a'.length = I.G.nc ∧ ∀ c, c < I.G.nc → a'.getD c 0 = k (p.getD c 0) := by
  unfold rockPart
  rw [if_pos ha]
  obtain ⟨t, e, h1, h2, _⟩ := IfsTpfa.loop_write (n := I.G.nc) (s := a) (f := fun c a => do
    let p ← rd p c
    let v ← r.rockComp p
    wr a c v) (fun c => k (p.getD c 0)) hl.ge (by
      intro c t hc _
      rw [MiscUtil.rdD (by omega), bind_ok, hr.comp, bind_ok])
  exact ⟨t, e, by rw [h1, hl], h2⟩

theorem pressuresPart_ok {I : Input} {W : Option Wells.W} {st : State} (hst : Sizes I W st) {a : List Rat} (ha : a.length = I.G.nc + numWells W) :
    ∃ a', pressuresPart I W st a = .ok a' ∧ a'.length = a.length ∧ (W ≠ none → ∀ k, k < I.G.nc + numWells W → a'.getD k 0 = unknowns I st k) := by
  unfold pressuresPart
  cases W with
  | none => exact ⟨a, rfl, rfl, fun h => absurd rfl h⟩
  | some V =>
    obtain ⟨x, y, e1, e2, h1, h2⟩ := join_ok hst ha
    dsimp only
    rw [e1, bind_ok]
    exact ⟨y, e2, h1, fun _ => h2⟩

section
variable {I : Input} {W W0 : Option Wells.W} {s : List Rat} {mode : Nat → WellMode} {m k : Rat → Rat} {dt : Rat} {r : RockComp} {S1 : Solver}

/-- What does not change during the iteration. -/
structure Fixed (I : Input) (W W0 : Option Wells.W) (s : List Rat) (mode : Nat → WellMode) (m k : Rat → Rat) (dt : Rat) (r : RockComp) (S1 : Solver) : Prop where
  input : InputOk I
  fit : ∀ V, W = some V → WellsFit I V
  fit0 : ∀ V, W0 = some V → WellsFit I V
  same : SamePerfs W W0
  ready : Ready I W0 S1
  prepared : Prepared I s S1
  wdp : ∀ V, W = some V → numPerf V ≤ S1.wdp.length
  lam : ∀ c, c < I.G.nc → 0 < lam I s c
  modes : Modes (forces I W S1) mode
  rock : RockOk I r m k
  active : r.isActive = true
  dt : 0 < dt
  init : S1.initialPv.length = I.G.nc

theorem Fixed.problem (F : Fixed I W W0 s mode m k dt r S1) {S : Solver} (hL : Like I W S1 S) : Problem I.G (some (forces I W S1)) S1.trans S1.gpressOmega S.h :=
  (problem_of F.input F.fit F.fit0 F.same F.ready F.prepared F.wdp).of_same hL.shape

theorem Fixed.dim (F : Fixed I W W0 s mode m k dt r S1) : S1.h.A.m = I.G.nc + numWells W := (sized_of F.input F.fit0 F.same F.ready).1

theorem iterate_ok (F : Fixed I W W0 s mode m k dt r S1) {S : Solver} (hL : Like I W S1 S) {st : State} (hst : Sizes I W st) :
    ∃ S2 S3, perIteration I r W st S = .ok S2 ∧ assembleStep I W dt st S2 = .ok S3 ∧ At I W mode m k dt S1 S3 st := by
  obtain ⟨pv, e1, l1, v1⟩ := MiscUtil.porevolume_comp_eq I.G.nc S.porevol (pressure := st.pressure) F.rock.mult F.rock.vol F.rock.porosity hst.pressure.ge
  obtain ⟨rc, e2, l2, v2⟩ := rockPart_ok F.rock F.active hst.pressure hL.rock
  obtain ⟨ps, e3, l3, v3⟩ := pressuresPart_ok hst hL.press
  have hm := F.dim
  have p := F.problem hL
  have hA : S.h.A = S1.h.A := hL.shape.A
  set prev := if W.isSome then ps else st.pressure with hprev
  have hpl : S.h.A.m ≤ prev.length := by
    rw [hA, hm, hprev]
    cases W with
    | none => simp [numWells, hst.pressure]
    | some V => simp only [Option.isSome_some, if_true]; rw [l3, hL.press]
  have hpv : ∀ j, j < I.G.nc + numWells W → prev.getD j 0 = unknowns I st j := by
    intro j hj
    rw [hprev]
    cases W with
    | none =>
      simp only [numWells] at hj
      simp only [Option.isSome_none, Bool.false_eq_true, if_false]
      unfold unknowns
      rw [if_pos (by omega)]
    | some V =>
      simp only [Option.isSome_some, if_true]
      exact v3 (by simp) j hj
  obtain ⟨h', e4, hsm, hg, hres⟩ := assembleComprockIncrement_ok p.setting (by simp) F.modes (ne_of_gt F.dt) (porevol := pv) (rockComp := rc) (prev := prev) (pv0 := S1.initialPv)
    l1.ge l2.ge hpl F.init.ge
  obtain ⟨pv0, rc0, ps0, h0, hS⟩ := hL.eq
  refine ⟨{ S with porevol := pv, rockComp := rc, pressures := ps }, { S with porevol := pv, rockComp := rc, pressures := ps, h := h' }, ?_, ?_, ?_⟩
  · unfold perIteration
    rw [e1, bind_ok, e2, bind_ok, e3, bind_ok]
  · unfold assembleStep
    have hS2 : (S.trans = S1.trans ∧ S.gpressOmega = S1.gpressOmega ∧ S.initialPv = S1.initialPv) ∧ S.totmob = S1.totmob ∧ S.wdp = S1.wdp := by subst hS; exact ⟨⟨rfl, rfl, rfl⟩, rfl, rfl⟩
    have hF : forces I W { S with porevol := pv, rockComp := rc, pressures := ps } = forces I W S1 := by
      unfold forces
      dsimp only
      rw [hS2.2.1, hS2.2.2]
    rw [hF]
    dsimp only
    rw [hS2.1.1, hS2.1.2.1, hS2.1.2.2, ← hprev, e4, bind_ok]
    rfl
  · refine ⟨⟨?_, hL.shape.trans hsm, l2, by rw [← hL.press]; exact l3⟩, hg, fun x q hq => ?_⟩
    · subst hS
      exact ⟨pv, rc, ps, h', rfl⟩
    · have := hres x q hq
      rw [hA] at this
      refine this.trans ?_
      congr 1
      · refine balance_congr F.input.valid p.forces (fun j hj => ?_) q
        rw [hpv j ?_]
        rcases hj with hj | ⟨V, hV, hj⟩
        · omega
        · have hV : W = some V := hV
          rw [hV]
          exact hj
      · by_cases hc : q < I.G.nc
        · rw [if_pos hc, if_pos hc, v1 q hc, v2 q hc]
          rfl
        · rw [if_neg hc, if_neg hc]

/-- The Newton system has a solution. -/
theorem newton_solvable (F : Fixed I W W0 s mode m k dt r S1) (hall : AllPerforated W) {S : Solver} {st : State} (hA : At I W mode m k dt S1 S st) :
    ∃ xs : List Rat, xs.length = S.h.A.m ∧ Solves S.h (vec xs) := by
  have p := F.problem hA.like
  have stt := p.setting
  have hm' : S.h.A = S1.h.A := hA.like.shape.A
  have hz := sized_of F.input F.fit0 F.same F.ready
  have hn := perfs_nonneg F.fit F.lam F.prepared
  have hκ : ∀ c, c < I.G.nc → 0 < poreVolume I m c (st.pressure.getD c 0) * k (st.pressure.getD c 0) / dt := fun c hc =>
    div_pos (mul_pos (mul_pos (mul_pos (F.rock.porosityPos c hc) (F.rock.volPos c hc)) (F.rock.multPos _)) (F.rock.compPos _)) F.dt
  have huniq : ∀ x y : Nat → Rat, (∀ r, r < S1.h.A.m → rowDot S1.h.A S.h.sa x r = rowDot S1.h.A S.h.sa y r) → ∀ j, j < S1.h.A.m → x j = y j := by
    intro x y heq
    have hdet := determined (κ := fun c => poreVolume I m c (st.pressure.getD c 0) * k (st.pressure.getD c 0) / dt) (fg := S.h.fgrav) (mode := mode) stt.valid stt.forces F.modes
      (fun f hf => le_of_lt (F.prepared.trans f hf).2) hn (fun c hc => le_of_lt (hκ c hc)) (by rw [F.dim]; omega)
      (fun V hV => by
        have hV : W = some V := hV
        rw [F.dim, hV]
        rfl) (unknowns I st)
      (by
        intro x y r hr
        have hx := hA.eqs x r hr
        have hy := hA.eqs y r hr
        unfold Res at hx hy
        simp only at hx hy
        by_cases hr : r < I.G.nc
        · simp only [if_pos hr, Option.getD_some] at hx hy ⊢
          linarith
        · simp only [if_neg hr, Option.getD_some] at hx hy ⊢
          linarith) heq
    exact all_equal (h := S1.h) hz.1 (connected_of F.fit F.lam F.prepared hall) stt.forces (fun c hc => .given ⟨hc, hκ c hc⟩) hdet
  obtain ⟨x, hx⟩ := rowDot_solvable huniq (fun r => S.h.b.getD r 0)
  obtain ⟨xs, hl, hxs⟩ := as_list x S1.h.A.m
  refine ⟨xs, by rw [hm']; exact hl, solves_congr (h := S.h) (cols_lt p) (fun k hk => (hxs k (by rw [← hm']; exact hk)).symm) ?_⟩
  intro r hr
  rw [hm'] at hr ⊢
  exact hx r hr

theorem update_ok {x : List Rat} {st : State} (hst : Sizes I W st) (hx : I.G.nc + numWells W ≤ x.length) :
    ∃ st', update I W x st = .ok st' ∧ Sizes I W st' ∧ st'.saturation = st.saturation ∧ st'.faceflux = st.faceflux ∧ st'.perfRates = st.perfRates ∧
      ∀ j, j < I.G.nc + numWells W → unknowns I st' j = unknowns I st j + x.getD j 0 := by
  have hp := hst.pressure
  have hb := hst.bhp
  obtain ⟨p, e1, l1, v1⟩ := MiscUtil.loop_addAt (n := I.G.nc) (s := st.pressure) (f := fun c p => do
    let v ← rd x c
    addAt p c v) (fun c => c) (fun c => x.getD c 0) (by
      intro c t hc _
      rw [MiscUtil.rdD (by omega), bind_ok]) (fun c hc => by omega)
  obtain ⟨b, e2, l2, v2⟩ := MiscUtil.loop_addAt (n := numWells W) (s := st.bhp) (f := fun w b => do
    let v ← rd x (I.G.nc + w)
    addAt b w v) (fun c => c) (fun w => x.getD (I.G.nc + w) 0) (by
      intro c t hc _
      rw [MiscUtil.rdD (by omega), bind_ok]) (fun c hc => by omega)
  refine ⟨{ st with pressure := p, bhp := b }, ?_, ⟨by rw [l1, hp], by rw [l2, hb]⟩, rfl, rfl, rfl, fun j hj => ?_⟩
  · unfold update
    rw [e1, bind_ok, e2, bind_ok]
  · unfold unknowns
    dsimp only
    by_cases hc : j < I.G.nc
    · rw [if_pos hc, if_pos hc, v1, Finset.sum_ite_eq, if_pos (Finset.mem_range.2 hc)]
    · rw [if_neg hc, if_neg hc, v2, Finset.sum_ite_eq, if_pos (Finset.mem_range.2 (by omega)), show I.G.nc + (j - I.G.nc) = j by omega]

theorem infnorm_le (l : List Rat) : ∀ x ∈ l, |x| ≤ infnorm l := by
  have hmono : ∀ (l : List Rat) (a : Rat), a ≤ l.foldl (fun norm x => max norm |x|) a := by
    intro l
    induction l with
    | nil => exact fun a => le_refl a
    | cons y l ih => exact fun a => le_trans (le_max_left _ _) (ih _)
  have hall : ∀ (l : List Rat) (a : Rat), ∀ x ∈ l, |x| ≤ l.foldl (fun norm x => max norm |x|) a := by
    intro l
    induction l with
    | nil => intro a x h; cases h
    | cons y l ih =>
      intro a x h
      rcases List.mem_cons.1 h with rfl | h
      · exact le_trans (le_max_right _ _) (hmono l _)
      · exact ih _ x h
  exact hall l 0

theorem norm_le {S : Solver} {l : List Rat} {j : Nat} (h1 : j < S.h.A.m) (h2 : j < l.length) : |l.getD j 0| ≤ norm S l := by
  refine infnorm_le _ _ ?_
  have : l.getD j 0 = l[j] := by simp [List.getD_eq_getElem?_getD, h2]
  rw [this]
  have h3 : j < (l.take S.h.A.m).length := by rw [List.length_take]; omega
  have h4 : (l.take S.h.A.m)[j] = l[j] := by simp
  rw [← h4]
  exact List.getElem_mem h3

/-- The equations of the wells hold. -/
def Rows (I : Input) (W : Option Wells.W) (mode : Nat → WellMode) (S1 : Solver) (x : Nat → Rat) : Prop :=
  ∀ V, W = some V → ∀ w, w < V.nw → ∀ fg, balance I.G (forces I W S1) mode S1.trans fg (x, I.G.nc + w) = 0

/-- How an iteration that started with `n` iterations left, at the state `st` with the last change `inc`, may end. -/
inductive Ends (I : Input) (W : Option Wells.W) (mode : Nat → WellMode) (m k : Rat → Rat) (dt : Rat) (S1 : Solver) (n : Nat) (st : State) (inc : Rat) (i : Iter) : Prop where
  | residual (h : At I W mode m k dt S1 i.S i.st) (hr : norm i.S i.S.h.b ≤ I.residualTol) (hi : i.res ≤ I.residualTol) (hw : Rows I W mode S1 (unknowns I i.st) ∨ i.st = st) : Ends I W mode m k dt S1 n st inc i
  | change (hl : Like I W S1 i.S) (hw : Rows I W mode S1 (unknowns I i.st)) (hi : i.inc ≤ I.changeTol) (old : Nat → Rat) (fg : List Rat) (hg : GravOk I.G S1.gpressOmega fg)
      (hd : ∀ c, c < I.G.nc → |i.st.pressure.getD c 0 - old c| ≤ I.changeTol)
      (hb : ∀ c, c < I.G.nc → balance I.G (forces I W S1) mode S1.trans fg (unknowns I i.st, c) =
        (poreVolume I m c (old c) + poreVolume I m c (old c) * k (old c) * (i.st.pressure.getD c 0 - old c) - S1.initialPv.getD c 0) / dt) : Ends I W mode m k dt S1 n st inc i
  | exhausted (h0 : i.left = 0) (hr : i.res > I.residualTol) (hi : 0 < n ∨ inc > I.changeTol → i.inc > I.changeTol) : Ends I W mode m k dt S1 n st inc i

theorem res_zero (A : SparseSys.Csr) (sys : Sys) (q : Nat) : Res A sys (fun _ => 0, q) = sys.b.getD q 0 := by
  unfold Res rowDot
  simp

theorem newton_ok (F : Fixed I W W0 s mode m k dt r S1) (hall : AllPerforated W) {ls : Data → List Rat} (hex : Exact ls) : ∀ (n : Nat) (S : Solver) (st : State) (inc : Rat),
    At I W mode m k dt S1 S st → Sizes I W st → ∃ i, newton ls I r W dt n S st (norm S S.h.b) inc = .ok i ∧ Sizes I W i.st ∧ i.st.saturation = st.saturation ∧ i.st.faceflux = st.faceflux ∧
      i.st.perfRates = st.perfRates ∧ Ends I W mode m k dt S1 n st inc i := by
  intro n
  induction n with
  | zero =>
    intro S st inc hA hst
    refine ⟨_, rfl, hst, rfl, rfl, rfl, ?_⟩
    by_cases hr : norm S S.h.b ≤ I.residualTol
    · exact .residual hA hr hr (.inr rfl)
    · exact .exhausted rfl (lt_of_not_ge hr) (fun h => h.elim (fun h => absurd h (Nat.not_lt_zero _)) id)
  | succ n ih =>
    intro S st inc hA hst
    unfold newton
    by_cases hr : norm S S.h.b > I.residualTol
    · rw [if_pos hr]
      have p := F.problem hA.like
      have hm' : S.h.A = S1.h.A := hA.like.shape.A
      have hdim := F.dim
      have hxl : (ls S.h).length = I.G.nc + numWells W := by rw [(hex S.h).1, hm', hdim]
      have hsol := (hex S.h).2 (newton_solvable F hall hA)
      obtain ⟨st2, e1, hst2, q1, q2, q3, hun⟩ := update_ok hst (x := ls S.h) hxl.ge
      have hx0 := (sized_of F.input F.fit0 F.same F.ready).2.1
      have hL2 : Like I W S1 { S with h := { S.h with x := ls S.h } } := by
        obtain ⟨pv, rc, ps, h0, hS⟩ := hA.like.eq
        have hsh := hA.like.shape
        refine ⟨?_, ⟨hsh.A, hsh.sa, hsh.b, ?_, hsh.fgrav, hsh.work⟩, hA.like.rock, hA.like.press⟩
        · subst hS
          exact ⟨pv, rc, ps, _, rfl⟩
        · show (ls S.h).length = _
          rw [hxl, hx0, hdim]
      -- the equations at the new pressures
      have hz : ∀ q, q < S1.h.A.m → Res S1.h.A ⟨S.h.sa, S.h.b⟩ (vec (ls S.h), q) = 0 := by
        intro q hq
        have := solves_iff.1 hsol q (by rw [hm']; exact hq)
        rwa [hm'] at this
      have hcong : ∀ fg q, balance I.G (forces I W S1) mode S1.trans fg (fun j => unknowns I st j + vec (ls S.h) j, q) = balance I.G (forces I W S1) mode S1.trans fg (unknowns I st2, q) := by
        intro fg q
        refine balance_congr F.input.valid p.forces (fun j hj => ?_) q
        refine (hun j ?_).symm
        rcases hj with hj | ⟨V, hV, hj⟩
        · omega
        · have hV : W = some V := hV
          rw [hV]
          exact hj
      have hrows : Rows I W mode S1 (unknowns I st2) := by
        intro V hV w hw fg
        have h1 := hz (I.G.nc + w) (by rw [hdim, hV]; exact Nat.add_lt_add_left hw _)
        rw [hA.eqs _ _ (.inr ⟨V, hV, by omega⟩), if_neg (by omega), sub_zero, hcong] at h1
        rw [balance_well (F := forces I W S1) F.input.valid p.forces (W := V) hV mode S1.trans _ _ hw] at h1 ⊢
        exact h1
      dsimp only
      rw [e1, bind_ok]
      by_cases hi : norm { S with h := { S.h with x := ls S.h } } (ls S.h) ≤ I.changeTol
      · rw [if_pos hi]
        refine ⟨_, rfl, hst2, q1, q2, q3, .change hL2 hrows hi (fun c => st.pressure.getD c 0) S.h.fgrav hA.grav (fun c hc => ?_) (fun c hc => ?_)⟩
        · have h1 := hun c (by omega)
          unfold unknowns at h1
          rw [if_pos hc, if_pos hc] at h1
          dsimp only
          rw [h1, add_sub_cancel_left]
          refine le_trans (norm_le (S := { S with h := { S.h with x := ls S.h } }) ?_ (by omega)) hi
          show c < S.h.A.m
          rw [hm', hdim]
          omega
        · have h1 := hun c (by omega)
          unfold unknowns at h1
          rw [if_pos hc, if_pos hc] at h1
          have h2 := hz c (by omega)
          rw [hA.eqs _ _ (.inl hc), if_pos hc, hcong] at h2
          dsimp only
          rw [h1, add_sub_cancel_left]
          simp only [vec] at h2
          have e : (poreVolume I m c (st.pressure.getD c 0) + poreVolume I m c (st.pressure.getD c 0) * k (st.pressure.getD c 0) * (ls S.h).getD c 0 - S1.initialPv.getD c 0) / dt =
              (poreVolume I m c (st.pressure.getD c 0) - S1.initialPv.getD c 0) / dt + poreVolume I m c (st.pressure.getD c 0) * k (st.pressure.getD c 0) / dt * (ls S.h).getD c 0 := by ring
          rw [e]
          linarith
      · rw [if_neg hi]
        obtain ⟨S2, S3, e2, e3, hA3⟩ := iterate_ok F hL2 hst2
        rw [e2, bind_ok, e3, bind_ok]
        obtain ⟨i, e4, g1, g2, g3, g4, g5⟩ := ih S3 st2 (norm { S with h := { S.h with x := ls S.h } } (ls S.h)) hA3 hst2
        refine ⟨i, e4, g1, g2.trans q1, g3.trans q2, g4.trans q3, ?_⟩
        cases g5 with
        | residual h1 h2 h3 h4 =>
          refine .residual h1 h2 h3 (.inl ?_)
          rcases h4 with h4 | h4
          · exact h4
          · rw [h4]; exact hrows
        | change h1 h2 h3 old fg h4 h5 h6 => exact .change h1 h2 h3 old fg h4 h5 h6
        | exhausted h1 h2 h3 => exact .exhausted h1 h2 (fun _ => h3 (.inr (lt_of_not_ge hi)))
    · rw [if_neg hr]
      exact ⟨_, rfl, hst, rfl, rfl, rfl, .residual hA (le_of_not_gt hr) (le_of_not_gt hr) (.inr rfl)⟩

theorem grav_unique (hI : InputOk I) {gp fg fg' : List Rat} (h : GravOk I.G gp fg) (h' : GravOk I.G gp fg') {f : Nat} (hf : f < I.G.nf) : fg.getD f 0 = fg'.getD f 0 := by
  by_cases hi : I.G.Interior f
  · obtain ⟨a, b, hs⟩ := hi
    obtain ⟨i1, k1⟩ := half_exists hI (.inl ⟨_, hs⟩)
    obtain ⟨i2, k2⟩ := half_exists hI (.inr ⟨_, hs⟩)
    rw [h.interior f a b i1 i2 hs k1 k2, h'.interior f a b i1 i2 hs k1 k2]
  · rw [h.boundary f hf hi, h'.boundary f hf hi]

theorem balance_grav (hI : InputOk I) {gp fg fg' : List Rat} (h : GravOk I.G gp fg) (h' : GravOk I.G gp fg') (Fo : Forces) (tr : List Rat) (xr : XR) :
    balance I.G Fo mode tr fg xr = balance I.G Fo mode tr fg' xr := by
  unfold balance
  congr 2
  by_cases hc : xr.2 < I.G.nc
  · rw [if_pos hc, if_pos hc]
    congr 1
    unfold GridTopo.netOutflow
    refine Finset.sum_congr rfl fun f hf => ?_
    have : intFlux I.G tr fg xr.1 f = intFlux I.G tr fg' xr.1 f := by
      unfold intFlux
      rw [grav_unique hI h h' (Finset.mem_range.1 hf)]
    rw [this]
  · rw [if_neg hc, if_neg hc]

theorem ready_like (hS : Ready I W0 S1) (hs : SamePerfs W W0) {S : Solver} (hL : Like I W S1 S) : Ready I W0 S := by
  obtain ⟨junk, jd, hd, e, h1⟩ := hS.data
  obtain ⟨pv, rc, ps, h0, hS'⟩ := hL.eq
  have hsh := h1.trans hL.shape
  have h2 := hL.rock
  have h3 := hL.press
  rw [numWells_same hs] at h3
  subst hS'
  exact ⟨hS.htLen, hS.ht, hS.gp, hS.gpoLen, hS.gpo, hS.transLen, ⟨junk, jd, hd, e, hsh⟩, fun _ => h2, h3, hS.wdp⟩

/-- Shut wells have pressure zero once their equation holds. -/
theorem shut_zero (F : Fixed I W W0 s mode m k dt r S1) (hall : AllPerforated W) {x : Nat → Rat} (h : Rows I W mode S1 x) {V : Wells.W} (hV : W = some V) {w : Nat} (hw : w < V.nw)
    (hm : HasMode V w .shut) : x (I.G.nc + w) = 0 := by
  have p := problem_of F.input F.fit F.fit0 F.same F.ready F.prepared F.wdp
  have h1 := h V hV w hw []
  rw [balance_well (F := forces I W S1) F.input.valid p.forces (W := V) hV mode S1.trans _ _ hw, mode_unique (F.modes V hV w hw) hm] at h1
  simp only [pRow, target, add_zero] at h1
  rw [Finset.sum_neg_distrib, ← Finset.sum_mul, neg_eq_zero, mul_eq_zero] at h1
  rcases h1 with h1 | h1
  · exfalso
    obtain ⟨i, c, hp, ht⟩ := hall V w hV hw
    have hVf := F.fit V hV
    have hnn : ∀ i ∈ Finset.Ico (V.connpos.getD w 0) (V.connpos.getD (w + 1) 0), 0 ≤ pT V (mtOf (forces I W S1)) i := by
      intro i hi
      rw [Finset.mem_Ico] at hi
      rw [← perfTrans_eq]
      exact perfs_nonneg F.fit F.lam F.prepared V hV i (hVf.ok.pos.lt_total hw hi.2)
    have := (Finset.sum_eq_zero_iff_of_nonneg hnn).1 h1 i (by
      obtain ⟨a, b, e1, e2, e3, e4, _⟩ := hp
      rw [Finset.mem_Ico, getD_of_getElem? e1, getD_of_getElem? e2]
      exact ⟨e3, e4⟩)
    rw [← perfTrans_eq, perfTrans_is hVf F.prepared hw hp] at this
    exact absurd this (ne_of_gt (mul_pos (F.lam _ (perf_cell hVf hw hp)) ht))
  · exact h1

/-- The last part of the call. -/
theorem results_ok (F : Fixed I W W0 s mode m k dt r S1) (hall : AllPerforated W) {S : Solver} (hL : Like I W S1 S) {st : State} (hst : Sizes I W st) (h2 : st.faceflux.length = I.G.nf)
    (h3 : ∀ W', W = some W' → st.bhp.length = W'.nw ∧ st.perfRates.length = numPerf W') :
    ∃ S' st', results I W S st = .ok (S', st') ∧ Ready I W0 S' ∧ S'.wdp = S1.wdp ∧ st'.saturation = st.saturation ∧ Darcy I s st' ∧
      (∀ c, c < I.G.nc → st'.pressure.getD c 0 = st.pressure.getD c 0) ∧
      (Rows I W mode S1 (unknowns I st) → ∀ fg, GravOk I.G S1.gpressOmega fg →
        Balanced I W (fun c => balance I.G (forces I W S1) mode S1.trans fg (unknowns I st, c)) st' ∧
        ∀ V, W = some V → ∀ off : Nat → Nat → Nat → Rat, (∀ w i c, w < V.nw → IsPerf V w i c → S1.wdp.getD i 0 = off w i c) → WellsSolved I V s off st' ∧
          ∀ w, w < V.nw → HasMode V w .shut → st'.bhp.getD w 0 = 0) := by
  have p := F.problem hL
  have hdim := F.dim
  obtain ⟨k1, sing, h', _, e1, hsm, _, hg, _⟩ := assemble_cases p F.modes
  obtain ⟨pv, rc, ps, h0, hS⟩ := hL.eq
  have hA : h'.A = S1.h.A := by rw [hsm.A, hL.shape.A]
  have hx0 := (sized_of F.input F.fit0 F.same F.ready).2.1
  have hxl : h'.x.length = I.G.nc + numWells W := by rw [hsm.x, hL.shape.x, hx0, hdim]
  obtain ⟨x1, x2, c1, c2, l2, v2⟩ := join_ok hst hxl
  have hlen : x2.length = h'.A.m := by rw [l2, hxl, hA, hdim]
  have hL' : Like I W S1 { S with h := { h' with x := x2 } } := by
    refine ⟨?_, ⟨hA, by rw [hsm.sa, hL.shape.sa], by rw [hsm.b, hL.shape.b], ?_, by rw [hsm.fgrav, hL.shape.fgrav], by rw [hsm.work, hL.shape.work]⟩, hL.rock, hL.press⟩
    · subst hS; exact ⟨pv, rc, ps, _, rfl⟩
    · show x2.length = _
      rw [l2, hxl, hx0, hdim]
  have hrun : results I W S st = (obtain I W st { S1 with porevol := pv, rockComp := rc, pressures := ps, h := { h' with x := x2 } } >>= fun st => .ok ({ S with h := { h' with x := x2 } }, st)) := by
    subst hS
    unfold results
    show (assemble I.G (some (forces I W S1)) S1.trans S1.gpressOmega h0 >>= _) = _
    rw [e1, bind_ok, check_ok (by simpa using hst.pressure), bind_ok, check_ok (by simpa using h2), bind_ok]
    dsimp only
    rw [c1, bind_ok, c2, bind_ok]
  have hob : obtain I W st { S1 with porevol := pv, rockComp := rc, pressures := ps, h := { h' with x := x2 } } = obtain I W st { S1 with h := { h' with x := x2 } } := rfl
  have hp' : ∀ c, c < I.G.nc → x2.getD c 0 = st.pressure.getD c 0 := by
    intro c hc
    rw [v2 c (by omega), unknowns, if_pos hc]
  obtain ⟨s0, s', hs, hwp, e2, hrun2, hdar, hcell⟩ := obtain_runs F.input F.fit F.prepared p e1 hlen hst.pressure h2 h3
  rw [hrun, hob, hrun2, bind_ok]
  refine ⟨_, _, rfl, ready_like F.ready F.same hL', by subst hS; rfl, rfl, hdar, fun c hc => (hcell c hc).trans (hp' c hc), fun hrows fg hfg => ?_⟩
  have hbal : ∀ fg q, balance I.G (forces I W S1) mode S1.trans fg (vec x2, q) = balance I.G (forces I W S1) mode S1.trans fg (unknowns I st, q) := by
    intro fg q
    refine balance_congr F.input.valid p.forces (fun j hj => ?_) q
    refine v2 j ?_
    rcases hj with hj | ⟨V, hV, hj⟩
    · omega
    · have hV : W = some V := hV
      rw [hV]
      exact hj
  obtain ⟨st', e3, _, _, hb, _, hwell⟩ := obtain_ok F.input F.fit hall F.lam F.prepared p e1 hlen F.modes (fun V hV w hw => by rw [hbal]; exact hrows V hV w hw _) hst.pressure h2 h3
  rw [hrun2] at e3
  cases e3
  refine ⟨fun c hc => ?_, fun V hV off hoff => ?_⟩
  · rw [hb c hc]
    dsimp only
    rw [hbal, balance_grav F.input hg hfg]
  · obtain ⟨g1, g2⟩ := hwell V hV off hoff
    refine ⟨g1, fun w hw hsh => ?_⟩
    rw [g2 w hw hsh]
    have := shut_zero F hall hrows hV hw hsh
    unfold unknowns at this
    rwa [if_neg (by omega), Nat.add_sub_cancel_left] at this

end

/-- The call with rock compressibility. -/
theorem rock_core {ls : Data → List Rat} (hlen : ∀ h, (ls h).length = h.A.m) {I : Input} (hI : InputOk I) {W W0 : Option Wells.W} (hW : ∀ W', W = some W' → WellsFit I W')
    (hW0 : ∀ W', W0 = some W' → WellsFit I W') (hsame : SamePerfs W W0) {st : State} (hst : StateOk I W st) (hbhp : W = none → st.bhp = [])
    {r : RockComp} (hr : I.rock = some r) (hact : r.isActive = true) {m k : Rat → Rat} (hrock : RockOk I r m k) {dt : Rat} (hdt : 0 < dt) (hit : 0 < I.maxiter)
    {first : Option (Option Wells.W × List Rat)} {S : Solver} (hS : Ready I W0 S) (hO : Offs I W0 first S.wdp) (hex : Exact ls) (hall : AllPerforated W) :
    solveRockComp ls I r W dt S st = .error .thrown ∨ ∃ S' st', solveRockComp ls I r W dt S st = .ok (S', st') ∧ Ready I W0 S' ∧ Offs I W0 (some (first.getD (W, st.saturation))) S'.wdp ∧
      st'.saturation = st.saturation ∧ Darcy I st.saturation st' ∧ Accepted I W st.saturation (fun V w _ c => usedOffset I first V st.saturation w c) m k dt st.pressure st' := by
  obtain ⟨S1, e1, hS1, hP, ho, hh, hini⟩ := perSolve_ok hI hW hsame hst (fun r' hr' _ => by rw [hr] at hr'; cases hr'; exact ⟨m, k, hrock⟩) hS
  obtain ⟨hO1, hoff⟩ := offs_step hW hsame hO ho
  have p := problem_of hI hW hW0 hsame hS1 hP (fun V e => (hoff V e).1)
  obtain ⟨mode, hm⟩ := exists_modes p.forces
  obtain ⟨hil, hiv⟩ := hini r m k hr hact hrock
  have F : Fixed I W W0 st.saturation mode m k dt r S1 := ⟨hI, hW, hW0, hsame, hS1, hP, fun V e => (hoff V e).1, hst.flows, hm, hrock, hact, hdt, hil⟩
  have hL : Like I W S1 S1 := ⟨⟨_, _, _, _, rfl⟩, SameShape.refl _, hS1.rock (by rw [hr]; simp), by rw [numWells_same hsame]; exact hS1.press⟩
  have hsz : Sizes I W st := ⟨hst.pressure, by
    cases W with
    | none => rw [hbhp rfl]; rfl
    | some V => exact (hst.wells V rfl).1⟩
  obtain ⟨S2, S3, e2, e3, hA⟩ := iterate_ok F hL hsz
  obtain ⟨i, e4, g1, g2, g3, g4, g5⟩ := newton_ok F hall hex I.maxiter.toNat S3 st 0 hA hsz
  have hn : 0 < I.maxiter.toNat := by omega
  unfold solveRockComp
  rw [e1, bind_ok, e2, bind_ok, e3, bind_ok, e4, bind_ok]
  by_cases hth : i.left = 0 ∧ 0 ≤ I.maxiter ∧ i.res > I.residualTol ∧ i.inc > I.changeTol
  · rw [if_pos hth]
    exact .inl rfl
  · rw [if_neg hth]
    refine .inr ?_
    have hff : i.st.faceflux.length = I.G.nf := by rw [g3]; exact hst.faceflux
    have hww : ∀ W', W = some W' → i.st.bhp.length = W'.nw ∧ i.st.perfRates.length = numPerf W' := by
      intro V hV
      refine ⟨?_, by rw [g4]; exact (hst.wells V hV).2⟩
      have := g1.bhp
      rw [hV] at this
      exact this
    cases g5 with
    | residual h1 h2 h3 h4 =>
      obtain ⟨S', st', e5, r1, r2, r3, r4, r5, r6⟩ := results_ok F hall h1.like g1 hff hww
      refine ⟨S', st', e5, r1, by rw [r2]; exact hO1, r3.trans g2, r4, ?_⟩
      have fin : Rows I W mode S1 (unknowns I i.st) → Accepted I W st.saturation (fun V w _ c => usedOffset I first V st.saturation w c) m k dt st.pressure st' := by
        intro hrow
        obtain ⟨b1, b2⟩ := r6 hrow _ h1.grav
        refine .residual _ b1 (fun c hc => ?_) (fun V hV => b2 V hV _ (fun w i c hw hp => (hoff V hV).2 w i c hw hp))
        have hx := h1.eqs (fun _ => 0) c (.inl hc)
        rw [res_zero, if_pos hc] at hx
        simp only [add_zero, mul_zero] at hx
        rw [r5 c hc]
        have : poreVolume I m c (st.pressure.getD c 0) = S1.initialPv.getD c 0 := (hiv c hc).symm
        rw [this]
        have hbx : balance I.G (forces I W S1) mode S1.trans i.S.h.fgrav (unknowns I i.st, c) - (poreVolume I m c (i.st.pressure.getD c 0) - S1.initialPv.getD c 0) / dt = i.S.h.b.getD c 0 := hx.symm
        rw [hbx]
        have hd := F.dim
        have hA' := h1.like.shape.A
        have hbl := (sized_of hI hW0 hsame hS1).2.2
        refine le_trans (norm_le ?_ ?_) h2
        · rw [hA', hd]; omega
        · rw [h1.like.shape.b, hbl, hd]; omega
      rcases h4 with h4 | h4
      · exact fin h4
      · cases hc : W with
        | none => subst hc; exact fin (fun V hV => by cases hV)
        | some V =>
          subst hc
          exact .untouched (by simp) (fun c hc => by rw [r5 c hc, h4])
    | change h1 h2 h3 old fg h4 h5 h6 =>
      obtain ⟨S', st', e5, r1, r2, r3, r4, r5, r6⟩ := results_ok F hall h1 g1 hff hww
      refine ⟨S', st', e5, r1, by rw [r2]; exact hO1, r3.trans g2, r4, ?_⟩
      obtain ⟨b1, b2⟩ := r6 h2 fg h4
      refine .change old (fun c hc => by rw [r5 c hc]; exact h5 c hc) (fun c hc => ?_) (fun V hV => b2 V hV _ (fun w i c hw hp => (hoff V hV).2 w i c hw hp))
      rw [b1 c hc]
      dsimp only
      rw [h6 c hc, r5 c hc]
      have : poreVolume I m c (st.pressure.getD c 0) = S1.initialPv.getD c 0 := (hiv c hc).symm
      rw [this]
    | exhausted h1 h2 h3 => exact absurd ⟨h1, by omega, h2, h3 (.inl hn)⟩ hth

end Opm.IncompTpfa
