import Verif.Proofs.PvtPoint
import Verif.Proofs.Slope
import Verif.Props.UniformMonotone
/-!
# Properties of single fluids
-/

namespace Opm.Pvt
open Opm Opm.Interp Opm.Rock

/-! ### Batches -/

/-- `B` of a batch: every point gets the value of a call for this point alone, and the call fails exactly if that of a point does. -/
theorem batch_b (f : Fluid) (cfg : Config) (n : Nat) (p z out out' : List Rat) (hp : p.length = n) (hz : z.length = n * cfg.numPhases) (ho : out.length = n) (hr : f.Reads cfg) :
    f.B cfg n p z out = .ok out' ↔ out'.length = n ∧ ∀ i x, p[i]? = some x → ∃ v, oneB f cfg (point cfg z i) x = .ok v ∧ out'[i]? = some v := by
  rw [b_each (by omega), each_iff ho]
  refine and_congr_right fun _ => ⟨fun h i x hx => ?_, fun h i hi => ?_⟩
  · have hi := (List.getElem?_eq_some_iff.1 hx).1
    have := h i (by omega)
    rwa [pt_b hz (by omega) hr, List.getD_eq_getElem?_getD, hx] at this
  · have hx := List.getElem?_eq_getElem (l := p) (i := i) (by omega)
    rw [pt_b hz hi hr, List.getD_eq_getElem?_getD, hx]
    exact h i _ hx

/-- Viscosity of a batch. -/
theorem batch_mu (f : Fluid) (cfg : Config) (n : Nat) (p z out out' : List Rat) (hp : p.length = n) (hz : z.length = n * cfg.numPhases) (ho : out.length = n) (hr : f.Reads cfg) :
    f.mu cfg n p z out = .ok out' ↔ out'.length = n ∧ ∀ i x, p[i]? = some x → ∃ v, oneMu f cfg (point cfg z i) x = .ok v ∧ out'[i]? = some v := by
  rw [mu_each (by omega), each_iff ho]
  refine and_congr_right fun _ => ⟨fun h i x hx => ?_, fun h i hi => ?_⟩
  · have hi := (List.getElem?_eq_some_iff.1 hx).1
    have := h i (by omega)
    rwa [pt_mu hz (by omega) hr, List.getD_eq_getElem?_getD, hx] at this
  · have hx := List.getElem?_eq_getElem (l := p) (i := i) (by omega)
    rw [pt_mu hz hi hr, List.getD_eq_getElem?_getD, hx]
    exact h i _ hx

/-- Solution factor of a batch. -/
theorem batch_r (f : Fluid) (cfg : Config) (n : Nat) (p z out out' : List Rat) (hp : p.length = n) (hz : z.length = n * cfg.numPhases) (ho : out.length = n) (hr : f.Reads cfg) :
    f.R cfg n p z out = .ok out' ↔ out'.length = n ∧ ∀ i x, p[i]? = some x → ∃ v, oneR f cfg (point cfg z i) x = .ok v ∧ out'[i]? = some v := by
  rw [r_each (by omega), each_iff ho]
  refine and_congr_right fun _ => ⟨fun h i x hx => ?_, fun h i hi => ?_⟩
  · have hi := (List.getElem?_eq_some_iff.1 hx).1
    have := h i (by omega)
    rwa [pt_r hz (by omega) hr, List.getD_eq_getElem?_getD, hx] at this
  · have hx := List.getElem?_eq_getElem (l := p) (i := i) (by omega)
    rw [pt_r hz hi hr, List.getD_eq_getElem?_getD, hx]
    exact h i _ hx

/-- `B` and derivative of a batch. -/
theorem batch_db (f : Fluid) (cfg : Config) (n : Nat) (p z a b a' b' : List Rat) (hp : p.length = n) (hz : z.length = n * cfg.numPhases) (ha : a.length = n) (hb : b.length = n) (hr : f.Reads cfg) :
    f.dBdp cfg n p z (a, b) = .ok (a', b') ↔
      a'.length = n ∧ b'.length = n ∧ ∀ i x, p[i]? = some x → ∃ v w, oneDB f cfg (point cfg z i) x = .ok (v, w) ∧ a'[i]? = some v ∧ b'[i]? = some w := by
  rw [db_each (by omega) (by omega) (by omega), each2_iff ha hb]
  refine and_congr_right fun _ => and_congr_right fun _ => ⟨fun h i x hx => ?_, fun h i hi => ?_⟩
  · have hi := (List.getElem?_eq_some_iff.1 hx).1
    have := h i (by omega)
    rw [List.getD_eq_getElem?_getD, hx] at this
    simp only [pt_db hz (show i < n by omega) hr] at this
    exact this
  · have hx := List.getElem?_eq_getElem (l := p) (i := i) (by omega)
    simp only [pt_db hz hi hr, List.getD_eq_getElem?_getD, hx]
    exact h i _ hx

/-- Solution factor and derivative of a batch. -/
theorem batch_dr (f : Fluid) (cfg : Config) (n : Nat) (p z a b a' b' : List Rat) (hp : p.length = n) (hz : z.length = n * cfg.numPhases) (ha : a.length = n) (hb : b.length = n) (hr : f.Reads cfg) :
    f.dRdp cfg n p z (a, b) = .ok (a', b') ↔
      a'.length = n ∧ b'.length = n ∧ ∀ i x, p[i]? = some x → ∃ v w, oneDR f cfg (point cfg z i) x = .ok (v, w) ∧ a'[i]? = some v ∧ b'[i]? = some w := by
  rw [dr_each (by omega) (by omega) (by omega), each2_iff ha hb]
  refine and_congr_right fun _ => and_congr_right fun _ => ⟨fun h i x hx => ?_, fun h i hi => ?_⟩
  · have hi := (List.getElem?_eq_some_iff.1 hx).1
    have := h i (by omega)
    rw [pt_dr hz (by omega) hr, List.getD_eq_getElem?_getD, hx] at this
    exact this
  · have hx := List.getElem?_eq_getElem (l := p) (i := i) (by omega)
    rw [pt_dr hz hi hr, List.getD_eq_getElem?_getD, hx]
    exact h i _ hx

/-! ### Constant compressibility -/

theorem poly_pos (x : Rat) : 1 / 2 ≤ poly x := by unfold poly; nlinarith [sq_nonneg (1 + x)]

theorem const_b_eq (c : ConstCompr) (cfg : Config) (z : List Rat) (p : Rat) : oneB (.const c) cfg z p = .ok (c.refB / poly (c.comp * (p - c.refPress))) := by
  rw [oneB_eq]
  show c.b1 p = _
  unfold ConstCompr.b1
  have := poly_pos (c.comp * (p - c.refPress))
  split
  · rw [fdiv_ok (by linarith)]
  · rename_i h
    have h0 : c.comp = 0 := by simpa using h
    rw [h0]
    congr 1
    unfold poly
    simp

theorem const_mu_eq (c : ConstCompr) (cfg : Config) (z : List Rat) (p : Rat) : oneMu (.const c) cfg z p = .ok (c.visc / poly (-c.viscComp * (p - c.refPress))) := by
  rw [oneMu_eq]
  show c.mu1 p = _
  unfold ConstCompr.mu1
  have := poly_pos (-c.viscComp * (p - c.refPress))
  split
  · rw [fdiv_ok (by linarith)]
  · rename_i h
    have h0 : c.viscComp = 0 := by simpa using h
    rw [h0]
    congr 1
    unfold poly
    simp

/-- The slope of the polynomial. -/
theorem poly_slope (k r x : Rat) : SlopeAt (fun y => .ok (poly (k * (y - r)))) x (k * (1 + k * (x - r))) := by
  refine ⟨_, k ^ 2, 1, rfl, by norm_num, fun t _ => ⟨_, rfl, ?_⟩⟩
  have : poly (k * (x + t - r)) - poly (k * (x - r)) - k * (1 + k * (x - r)) * t = 1 / 2 * (k * t) ^ 2 := by unfold poly; ring
  rw [this, abs_of_nonneg (by positivity)]
  nlinarith [sq_nonneg (k * t)]

/-- The slope of a constant divided by the polynomial. -/
theorem const_over_poly_slope (b k r x : Rat) :
    SlopeAt (fun y => .ok (b / poly (k * (y - r)))) x (-b / (poly (k * (x - r)) * poly (k * (x - r))) * (1 + k * (x - r)) * k) := by
  have hp := poly_pos (k * (x - r))
  have h := (slope_const b x).quot (poly_slope k r x) rfl rfl (by linarith)
  have e : (0 - b / poly (k * (x - r)) * (k * (1 + k * (x - r)))) / poly (k * (x - r)) = -b / (poly (k * (x - r)) * poly (k * (x - r))) * (1 + k * (x - r)) * k := by
    have : poly (k * (x - r)) ≠ 0 := by linarith
    field_simp
    ring
  rw [e] at h
  refine h.congr (δ := 1) (by norm_num) (fun t _ => ?_)
  have := poly_pos (k * (x + t - r))
  show _ = (Except.ok b >>= fun a => Except.ok (poly (k * (x + t - r))) >>= fun b => fdiv a b)
  rw [bind_ok, bind_ok, fdiv_ok (by linarith)]

/-- A fluid of constant compressibility has the tabulated `B` and viscosity at the reference pressure; there, its compressibility `-B'/B` and `mu'/mu` are those of the table.  It dissolves nothing. -/
theorem const_reference (c : ConstCompr) (cfg : Config) (z : List Rat) :
    oneB (.const c) cfg z c.refPress = .ok c.refB ∧ oneMu (.const c) cfg z c.refPress = .ok c.visc ∧
    SlopeAt (oneB (.const c) cfg z) c.refPress (-c.comp * c.refB) ∧ SlopeAt (oneMu (.const c) cfg z) c.refPress (c.viscComp * c.visc) ∧
    ∀ p, oneR (.const c) cfg z p = .ok 0 ∧ oneDR (.const c) cfg z p = .ok (0, 0) := by
  have hp : ∀ k : Rat, poly (k * (c.refPress - c.refPress)) = 1 := fun k => by unfold poly; ring
  refine ⟨?_, ?_, ?_, ?_, fun p => ⟨by rw [oneR_eq]; rfl, by rw [oneDR_eq]; rfl⟩⟩
  · rw [const_b_eq, hp, div_one]
  · rw [const_mu_eq, hp, div_one]
  · have h := const_over_poly_slope c.refB c.comp c.refPress c.refPress
    rw [hp, sub_self] at h
    have e : -c.refB / (1 * 1) * (1 + c.comp * 0) * c.comp = -c.comp * c.refB := by ring
    rw [e] at h
    exact h.congr (δ := 1) (by norm_num) (fun t _ => const_b_eq c cfg z _)
  · have h := const_over_poly_slope c.visc (-c.viscComp) c.refPress c.refPress
    rw [hp, sub_self] at h
    have e : -c.visc / (1 * 1) * (1 + -c.viscComp * 0) * -c.viscComp = c.viscComp * c.visc := by ring
    rw [e] at h
    exact h.congr (δ := 1) (by norm_num) (fun t _ => const_mu_eq c cfg z _)

/-- `B` and viscosity are positive at all pressures, and at most twice those of the table. -/
theorem const_positive (c : ConstCompr) (cfg : Config) (z : List Rat) (p : Rat) (hb : 0 < c.refB) (hv : 0 < c.visc) :
    ∃ b m, oneB (.const c) cfg z p = .ok b ∧ oneMu (.const c) cfg z p = .ok m ∧ 0 < b ∧ b ≤ 2 * c.refB ∧ 0 < m ∧ m ≤ 2 * c.visc := by
  have h1 := poly_pos (c.comp * (p - c.refPress))
  have h2 := poly_pos (-c.viscComp * (p - c.refPress))
  refine ⟨_, _, const_b_eq c cfg z p, const_mu_eq c cfg z p, div_pos hb (by linarith), ?_, div_pos hv (by linarith), ?_⟩
  · rw [div_le_iff₀ (by linarith)]; nlinarith
  · rw [div_le_iff₀ (by linarith)]; nlinarith

/-- `dBdp` returns the same `B` and the slope of `B`, at all pressures. -/
theorem const_derivative (c : ConstCompr) (cfg : Config) (z : List Rat) (p : Rat) :
    ∃ b d, oneB (.const c) cfg z p = .ok b ∧ oneDB (.const c) cfg z p = .ok (b, d) ∧ SlopeAt (oneB (.const c) cfg z) p d := by
  have hp := poly_pos (c.comp * (p - c.refPress))
  refine ⟨_, -c.refB / (poly (c.comp * (p - c.refPress)) * poly (c.comp * (p - c.refPress))) * (1 + c.comp * (p - c.refPress)) * c.comp, const_b_eq c cfg z p, ?_,
    (const_over_poly_slope c.refB c.comp c.refPress p).congr (δ := 1) (by norm_num) (fun t _ => const_b_eq c cfg z _)⟩
  rw [oneDB_eq_ok]
  show c.db1 p = _
  unfold ConstCompr.db1
  split
  · rw [fdiv_ok (by linarith), bind_ok, fdiv_ok (by nlinarith), bind_ok]
  · rename_i h
    have h0 : c.comp = 0 := by simpa using h
    rw [h0]
    congr 1
    unfold poly
    simp

/-- A compressible fluid shrinks with pressure, unless the pressure is below the reference by more than the inverse of the compressibility. -/
theorem const_shrinks_partial (c : ConstCompr) (cfg : Config) (z : List Rat) (p q b b' : Rat) (hb : 0 < c.refB) (hc : 0 < c.comp) (hpq : p ≤ q) (hlow : -1 ≤ c.comp * (p - c.refPress))
    (h : oneB (.const c) cfg z p = .ok b) (h' : oneB (.const c) cfg z q = .ok b') : b' ≤ b := by
  rw [const_b_eq] at h h'
  rw [← Except.ok.inj h, ← Except.ok.inj h']
  have h1 := poly_pos (c.comp * (p - c.refPress))
  apply div_le_div_of_nonneg_left hb.le (by linarith)
  unfold poly
  have : c.comp * (p - c.refPress) ≤ c.comp * (q - c.refPress) := mul_le_mul_of_nonneg_left (by linarith) hc.le
  nlinarith

/-- Below that pressure, the fluid swells with pressure. -/
theorem const_swells : ∃ (c : ConstCompr) (p q b b' : Rat), 0 < c.refB ∧ 0 < c.comp ∧ p < q ∧ oneB (.const c) ⟨2, [0, 1, 2]⟩ [1, 1] p = .ok b ∧ oneB (.const c) ⟨2, [0, 1, 2]⟩ [1, 1] q = .ok b' ∧ b < b' :=
  ⟨⟨300, 1, 1 / 100, 1, 0⟩, 0, 150, 2 / 5, 8 / 5, by decide +kernel⟩

/-- The constructor from a table takes one region of at least five numbers, in the order of PVTW and PVCDO. -/
theorem const_new (a b c d e : Rat) (rest : List Rat) (t : List (List Rat)) :
    ConstCompr.new [a :: b :: c :: d :: e :: rest] = .ok ⟨a, b, c, d, e⟩ ∧ (t.length ≠ 1 → ConstCompr.new t = .error .thrown) :=
  ⟨rfl, fun h => by unfold ConstCompr.new; rw [if_pos h]⟩

/-- Water without a table is incompressible. -/
theorem const_default (v : Rat) (cfg : Config) (z : List Rat) (p : Rat) : oneB (.const (ConstCompr.ofVisc v)) cfg z p = .ok 1 ∧ oneMu (.const (ConstCompr.ofVisc v)) cfg z p = .ok v := by
  rw [const_b_eq, const_mu_eq]
  constructor <;> · congr 1; simp [ConstCompr.ofVisc, poly]

/-- Water of a deck, in bars. -/
example : oneB (.const ⟨300, 103 / 100, 1 / 20000, 3 / 10, 1 / 1000⟩) ⟨2, [0, 1, 2]⟩ [1, 1] 400 = .ok (824000 / 804010) ∧
    oneMu (.const ⟨300, 103 / 100, 1 / 20000, 3 / 10, 1 / 1000⟩) ⟨2, [0, 1, 2]⟩ [1, 1] 400 = .ok (60 / 181) := by decide +kernel

/-! ### Dead fluids -/

theorem copy_write {n : Nat} {g : Nat → M Rat} {v : List Rat} (hv : v.length = n) (hg : ∀ i x, v[i]? = some x → g i = .ok x) :
    loop n (fun i l => do let q ← g i; wr l i q) (List.replicate n 0) = .ok v := by
  have := (each_iff (n := n) (g := g) (out := List.replicate n 0) (out' := v) (by simp)).2 ⟨hv, fun i hi => ⟨v[i], hg i _ (List.getElem?_eq_getElem (by omega)), List.getElem?_eq_getElem (by omega)⟩⟩
  exact this

theorem copyColumns_ok {ps bs ms : List Rat} {rest : List (List Rat)} (hb : bs.length = ps.length) (hm : ms.length = ps.length) (h0 : ∀ b ∈ bs, b ≠ 0) :
    copyColumns (ps :: bs :: ms :: rest) = .ok (ps, bs.map (fun b => 1 / b), ms) := by
  unfold copyColumns
  rw [show rd (ps :: bs :: ms :: rest) 0 = .ok ps from rfl, bind_ok]
  dsimp only
  rw [copy_write (v := ps) rfl (fun i x hx => rd_of_getElem? hx), bind_ok]
  have e1 : loop ps.length (fun i l => do let c ← rd (ps :: bs :: ms :: rest) 1; let v ← rd c i; let q ← fdiv 1 v; wr l i q) (List.replicate ps.length 0) = .ok (bs.map (fun b => 1 / b)) := by
    refine Eq.trans ?_ (copy_write (n := ps.length) (g := fun i => rd bs i >>= fdiv 1) (v := bs.map (fun b => 1 / b)) (by simpa using hb) (fun i x hx => ?_))
    · exact loop_congr (fun i s hi => by
        show (rd bs i >>= fun v => fdiv 1 v >>= fun q => wr s i q) = ((rd bs i >>= fdiv 1) >>= fun q => wr s i q)
        cases rd bs i with
        | error _ => rfl
        | ok v => rfl)
    · rw [List.getElem?_map] at hx
      cases hb' : bs[i]? with
      | none => rw [hb'] at hx; cases hx
      | some b =>
        rw [hb'] at hx
        show (rd bs i >>= fdiv 1) = _
        rw [rd_of_getElem? hb', bind_ok, fdiv_ok (h0 b (List.mem_of_getElem? hb'))]
        exact congrArg Except.ok (Option.some.inj hx)
  rw [e1, bind_ok]
  have e2 : loop ps.length (fun i l => do let c ← rd (ps :: bs :: ms :: rest) 2; let v ← rd c i; wr l i v) (List.replicate ps.length 0) = .ok ms :=
    copy_write (n := ps.length) (g := fun i => rd ms i) (v := ms) hm (fun i x hx => rd_of_getElem? hx)
  rw [e2, bind_ok]

theorem nondecreasing_of_lt : ∀ {l : List Rat}, l.Pairwise (· < ·) → isNondecreasing l = true
  | [], _ => rfl
  | [_], _ => rfl
  | a :: b :: l, h => by
    unfold isNondecreasing
    have h1 := List.rel_of_pairwise_cons h (List.mem_cons_self)
    rw [if_neg (by linarith)]
    exact nondecreasing_of_lt (List.Pairwise.of_cons h)

/-- The object built from a table of pressures, formation volume factors and viscosities. -/
theorem dead_new {ps bs ms : List Rat} {rest : List (List Rat)} (hinc : ps.Pairwise (· < ·)) (hb : bs.length = ps.length) (hm : ms.length = ps.length) (h0 : ∀ b ∈ bs, b ≠ 0) :
    Dead.new [ps :: bs :: ms :: rest] = .ok ⟨.nonuniform ⟨ps, bs.map (fun b => 1 / b), [], []⟩, .nonuniform ⟨ps, ms, [], []⟩⟩ := by
  unfold Dead.new
  rw [if_neg (by simp), show rd [ps :: bs :: ms :: rest] 0 = .ok (ps :: bs :: ms :: rest) from rfl, bind_ok, copyColumns_ok hb hm h0, bind_ok]
  dsimp only
  unfold NTable.new
  rw [check_ok (nondecreasing_of_lt hinc), bind_ok, bind_ok, bind_ok]
  rfl

/-- A usable table of a dead fluid: increasing pressures and positive numbers. -/
structure DeadTable (ps bs ms : List Rat) : Prop where
  inc : ps.Pairwise (· < ·)
  two : 2 ≤ ps.length
  lenB : bs.length = ps.length
  lenM : ms.length = ps.length
  posB : ∀ b ∈ bs, 0 < b
  posM : ∀ m ∈ ms, 0 < m

/-- A dead fluid has the tabulated values at the pressures of the table, and dissolves nothing. -/
theorem dead_reproduces {ps bs ms : List Rat} {rest : List (List Rat)} (h : DeadTable ps bs ms) (cfg : Config) (z : List Rat) :
    ∃ d, Dead.new [ps :: bs :: ms :: rest] = .ok d ∧
      (∀ (i : Nat) x b m, ps[i]? = some x → bs[i]? = some b → ms[i]? = some m → oneB (.dead d) cfg z x = .ok b ∧ oneMu (.dead d) cfg z x = .ok m) ∧
      ∀ p, oneR (.dead d) cfg z p = .ok 0 ∧ oneDR (.dead d) cfg z p = .ok (0, 0) := by
  refine ⟨_, dead_new h.inc h.lenB h.lenM (fun b hb => (h.posB b hb).ne'), fun i x b m hx hb hm => ⟨?_, ?_⟩, fun p => ⟨by rw [oneR_eq]; rfl, by rw [oneDR_eq]; rfl⟩⟩
  · rw [oneB_eq]
    show (linearInterpolation ps (bs.map (fun b => 1 / b)) x >>= fdiv 1) = _
    have hbp := h.posB b (List.mem_of_getElem? hb)
    rw [interpolation_reproduces ps (bs.map (fun b => 1 / b)) (Or.inl h.inc) h.two (by simpa using h.lenB) i x (1 / b) hx (by rw [List.getElem?_map, hb]; rfl), bind_ok, fdiv_ok (by positivity)]
    congr 1
    field_simp
  · rw [oneMu_eq]
    exact interpolation_reproduces ps ms (Or.inl h.inc) h.two h.lenM i x m hx hm

/-- Between two pressures of the table, `B` and viscosity are between the tabulated ones, and positive. -/
theorem dead_between {ps bs ms : List Rat} {rest : List (List Rat)} (h : DeadTable ps bs ms) (cfg : Config) (z : List Rat) {d : Dead} (hd : Dead.new [ps :: bs :: ms :: rest] = .ok d)
    (i : Nat) (x x1 x2 b1 b2 m1 m2 : Rat) (hx1 : ps[i]? = some x1) (hx2 : ps[i + 1]? = some x2) (hb1 : bs[i]? = some b1) (hb2 : bs[i + 1]? = some b2) (hm1 : ms[i]? = some m1) (hm2 : ms[i + 1]? = some m2)
    (hlo : x1 ≤ x) (hhi : x ≤ x2) :
    ∃ b m, oneB (.dead d) cfg z x = .ok b ∧ oneMu (.dead d) cfg z x = .ok m ∧ min b1 b2 ≤ b ∧ b ≤ max b1 b2 ∧ min m1 m2 ≤ m ∧ m ≤ max m1 m2 ∧ 0 < b ∧ 0 < m := by
  rw [dead_new h.inc h.lenB h.lenM (fun b hb => (h.posB b hb).ne')] at hd
  cases hd
  have p1 := h.posB b1 (List.mem_of_getElem? hb1)
  have p2 := h.posB b2 (List.mem_of_getElem? hb2)
  have q1 := h.posM m1 (List.mem_of_getElem? hm1)
  have q2 := h.posM m2 (List.mem_of_getElem? hm2)
  obtain ⟨_, v, _, _, _, _, e, v1, v2⟩ := interpolation_between ps (bs.map (fun b => 1 / b)) (Or.inl h.inc) (by simpa using h.lenB) i x x1 x2 (1 / b1) (1 / b2) hx1 hx2
    (by rw [List.getElem?_map, hb1]; rfl) (by rw [List.getElem?_map, hb2]; rfl) (le_trans (min_le_left _ _) hlo) (le_trans hhi (le_max_right _ _))
  obtain ⟨_, m, _, _, _, _, e', w1, w2⟩ := interpolation_between ps ms (Or.inl h.inc) h.lenM i x x1 x2 m1 m2 hx1 hx2 hm1 hm2 (le_trans (min_le_left _ _) hlo) (le_trans hhi (le_max_right _ _))
  have hv : 0 < v := lt_of_lt_of_le (lt_min (by positivity) (by positivity)) v1
  refine ⟨1 / v, m, ?_, ?_, ?_, ?_, w1, w2, by positivity, lt_of_lt_of_le (lt_min q1 q2) w1⟩
  · rw [oneB_eq]
    show (linearInterpolation ps (bs.map (fun b => 1 / b)) x >>= fdiv 1) = _
    rw [e, bind_ok, fdiv_ok hv.ne']
  · rw [oneMu_eq]; exact e'
  · rw [le_div_iff₀ hv]
    rcases le_total b1 b2 with hb | hb
    · rw [min_eq_left hb]
      rw [max_eq_left (one_div_le_one_div_of_le p1 hb), le_div_iff₀ p1] at v2
      linarith
    · rw [min_eq_right hb]
      rw [max_eq_right (one_div_le_one_div_of_le p2 hb), le_div_iff₀ p2] at v2
      linarith
  · rw [div_le_iff₀ hv]
    rcases le_total b1 b2 with hb | hb
    · rw [max_eq_right hb]
      rw [min_eq_right (one_div_le_one_div_of_le p1 hb), div_le_iff₀ p2] at v1
      linarith
    · rw [max_eq_left hb]
      rw [min_eq_left (one_div_le_one_div_of_le p2 hb), div_le_iff₀ p1] at v1
      linarith

/-- Where `1/B` has a slope, `dBdp` is the slope of `B`. -/
theorem dead_deriv (d : Dead) (cfg : Config) (z : List Rat) (p v s : Rat) (he : d.oneOverB.eval p = .ok v) (hv : v ≠ 0) (hs : d.oneOverB.derivative p = .ok s) (hsl : SlopeAt d.oneOverB.eval p s) :
    ∃ b e, oneB (.dead d) cfg z p = .ok b ∧ oneDB (.dead d) cfg z p = .ok (b, e) ∧ SlopeAt (oneB (.dead d) cfg z) p e := by
  have hb : d.bAt p = .ok (1 / v) := by unfold Dead.bAt; rw [he, bind_ok, fdiv_ok hv]
  refine ⟨1 / v, _, by rw [oneB_eq]; exact hb, ?_, (hsl.recip he hv).congr (δ := 1) (by norm_num) (fun t _ => by rw [oneB_eq]; rfl)⟩
  rw [oneDB_eq_ok]
  show d.db1 p = _
  unfold Dead.db1
  rw [hb, bind_ok, hs, bind_ok]

/-- `dBdp` of a dead fluid returns the same `B` and the slope of `B`, except at the pressures of the table and where `1/B` is zero. -/
theorem dead_derivative {ps bs ms : List Rat} {rest : List (List Rat)} (h : DeadTable ps bs ms) (cfg : Config) (z : List Rat) {d : Dead} (hd : Dead.new [ps :: bs :: ms :: rest] = .ok d)
    (p b : Rat) (hp : p ∉ ps) (hb : oneB (.dead d) cfg z p = .ok b) :
    ∃ e, oneDB (.dead d) cfg z p = .ok (b, e) ∧ SlopeAt (oneB (.dead d) cfg z) p e := by
  rw [dead_new h.inc h.lenB h.lenM (fun b hb => (h.posB b hb).ne')] at hd
  cases hd
  obtain ⟨s, hs, hsl⟩ := interp_slope h.inc h.two (yv := bs.map (fun b => 1 / b)) (by simpa using h.lenB) hp
  have hb' := hb
  rw [oneB_eq] at hb'
  obtain ⟨v, ev, h1⟩ := bind_eq_ok.1 (show (linearInterpolation ps (bs.map (fun b => 1 / b)) p >>= fdiv 1) = .ok b from hb')
  have hv : v ≠ 0 := by
    intro h0
    unfold fdiv at h1
    rw [if_pos h0] at h1
    cases h1
  obtain ⟨b', e, e1, e2, e3⟩ := dead_deriv ⟨.nonuniform ⟨ps, bs.map (fun b => 1 / b), [], []⟩, .nonuniform ⟨ps, ms, [], []⟩⟩ cfg z p v s ev hv hs hsl
  rw [hb] at e1
  cases e1
  exact ⟨e, e2, e3⟩

/-- The same for the tables of equal spacing used for a positive number of samples, except at their nodes and where `1/B` is zero. -/
theorem spline_derivative (sqrt : Rat → Rat) (c1 c2 : Bool) (fl : MonotCubic.Flags) (pvd : List (List (List Rat))) (samples : Int) (cfg : Config) (z : List Rat) {d : Dead}
    (hd : Dead.newSpline sqrt c1 c2 fl pvd samples = .ok d) :
    ∃ t, d.oneOverB = .uniform t ∧ ∀ p b, oneB (.dead d) cfg z p = .ok b → (∀ k, k < t.ys.length → p ≠ t.node k) →
      ∃ e, oneDB (.dead d) cfg z p = .ok (b, e) ∧ SlopeAt (oneB (.dead d) cfg z) p e := by
  unfold Dead.newSpline at hd
  split at hd
  · cases hd
  obtain ⟨region, _, hd⟩ := bind_eq_ok.1 hd
  obtain ⟨⟨ps, bi, ms⟩, _, hd⟩ := bind_eq_ok.1 hd
  obtain ⟨t, ht, hd⟩ := bind_eq_ok.1 hd
  obtain ⟨u, _, hd⟩ := bind_eq_ok.1 hd
  cases hd
  have hp : t.Proper := by
    unfold UniformMonotone.build at ht
    obtain ⟨s, _, ht⟩ := bind_eq_ok.1 ht
    split at ht
    · cases ht
    obtain ⟨a, _, ht⟩ := bind_eq_ok.1 ht
    obtain ⟨b, _, ht⟩ := bind_eq_ok.1 ht
    obtain ⟨r, _, ht⟩ := bind_eq_ok.1 ht
    exact (uniform_new_proper ht).1
  refine ⟨t, rfl, fun p b hb hnode => ?_⟩
  obtain ⟨s, hs, hsl⟩ := uniform_slope hp hnode
  have hb' := hb
  rw [oneB_eq] at hb'
  obtain ⟨v, ev, h1⟩ := bind_eq_ok.1 (show (t.eval p >>= fdiv 1) = .ok b from hb')
  have hv : v ≠ 0 := by
    intro h0
    unfold fdiv at h1
    rw [if_pos h0] at h1
    cases h1
  obtain ⟨b', e, e1, e2, e3⟩ := dead_deriv ⟨.uniform t, .uniform u⟩ cfg z p v s ev hv hs hsl
  rw [hb] at e1
  cases e1
  exact ⟨e, e2, e3⟩

theorem put_last {k v : Rat} : ∀ {m : List (Rat × Rat)}, (∀ q ∈ m, q.1 < k) → MonotCubic.put k v m = m ++ [(k, v)]
  | [], _ => rfl
  | q :: m, h => by
    have h1 := h q (List.mem_cons_self)
    unfold MonotCubic.put
    rw [if_neg (by linarith), if_neg (by intro e; linarith), put_last (fun x hx => h x (List.mem_cons_of_mem _ hx))]
    rfl

theorem fold_put_sorted : ∀ (l m : List (Rat × Rat)), (l.map (·.1)).Pairwise (· < ·) → (∀ q ∈ m, ∀ r ∈ l, q.1 < r.1) → l.foldl (fun m p => MonotCubic.put p.1 p.2 m) m = m ++ l
  | [], m, _, _ => by simp
  | r :: l, m, h, hm => by
    rw [List.foldl_cons, put_last (fun q hq => hm q hq r (List.mem_cons_self))]
    rw [List.map_cons, List.pairwise_cons] at h
    rw [fold_put_sorted l _ h.2 (fun q hq t ht => by
      rcases List.mem_append.1 hq with h1 | h1
      · exact hm q h1 t (List.mem_cons_of_mem _ ht)
      · rw [List.mem_singleton.1 h1]
        exact h.1 _ (List.mem_map.2 ⟨t, ht, rfl⟩))]
    simp

/-- What `build` makes of sorted arguments and values that never decrease. -/
theorem build_sorted {sqrt : Rat → Rat} (hr : MonotCubic.Spec.IsRoot sqrt) (c1 c2 : Bool) (fl : MonotCubic.Flags) {xv yv : List Rat} {samples : Int} (hinc : xv.Pairwise (· < ·)) (h2 : 2 ≤ xv.length)
    (hl : yv.length = xv.length) (hs : 2 ≤ samples) {x0 xn y0 yn : Rat} (hx0 : xv.head? = some x0) (hxn : xv.getLast? = some xn) (hy0 : yv.head? = some y0) (hyn : yv.getLast? = some yn) :
    ∃ t, UniformMonotone.build sqrt c1 c2 fl xv yv samples = .ok t ∧ (∀ x, x ≤ x0 → t.eval x = .ok y0) ∧ (∀ x, xn ≤ x → t.eval x = .ok yn) ∧
      (yv.Pairwise (· ≤ ·) → (∀ x, ∃ y, t.eval x = .ok y ∧ y0 ≤ y ∧ y ≤ yn) ∧ ∀ x x' y y', x ≤ x' → t.eval x = .ok y → t.eval x' = .ok y' → y ≤ y') := by
  have hlt : x0 < xn := by
    rw [List.head?_eq_getElem?] at hx0
    rw [List.getLast?_eq_getElem?] at hxn
    obtain ⟨a1, rfl⟩ := List.getElem?_eq_some_iff.1 hx0
    obtain ⟨b1, rfl⟩ := List.getElem?_eq_some_iff.1 hxn
    exact List.pairwise_iff_getElem.1 hinc _ _ a1 b1 (by omega)
  obtain ⟨s, t, es, et, hp, t1, t2, t3, hk⟩ := UniformMonotone.build_samples hr c1 c2 fl hl.symm hx0 hxn hlt hs
  obtain ⟨s', es', hd, _⟩ := MonotCubic.construct_good hr c1 c2 fl hl.symm
  rw [es] at es'
  cases es'
  have hmap : (xv.zip yv).map (·.1) = xv := List.map_fst_zip (by omega)
  have hmap2 : (xv.zip yv).map (·.2) = yv := List.map_snd_zip (by omega)
  rw [fold_put_sorted _ _ (by rw [hmap]; exact hinc) (by simp), List.nil_append] at hd
  have hfx : MonotCubic.xVector s = xv := by unfold MonotCubic.xVector; rw [hd]; exact hmap
  have hfv : MonotCubic.fVector s = yv := by unfold MonotCubic.fVector; rw [hd]; exact hmap2
  have hre : MonotCubic.Reachable sqrt s := ⟨c1, c2, fl, xv, yv, [], s, es, rfl⟩
  have hlen := hp.two
  have hdom := hp.dom
  have hn : ((t.ys.length - 1 : Nat) : Rat) ≠ 0 := by
    have : 0 < t.ys.length - 1 := by omega
    exact_mod_cast Nat.pos_iff_ne_zero.1 this
  have hle : ∀ a ∈ xv, x0 ≤ a ∧ a ≤ xn := by
    intro a ha
    obtain ⟨i, hi, rfl⟩ := List.mem_iff_getElem.1 ha
    rw [List.head?_eq_getElem?] at hx0
    rw [List.getLast?_eq_getElem?] at hxn
    obtain ⟨a1, rfl⟩ := List.getElem?_eq_some_iff.1 hx0
    obtain ⟨b1, rfl⟩ := List.getElem?_eq_some_iff.1 hxn
    constructor
    · rcases Nat.eq_zero_or_pos i with h0 | h0
      · subst h0; exact le_refl _
      · exact (List.pairwise_iff_getElem.1 hinc _ _ a1 hi h0).le
    · rcases Nat.lt_or_ge i (xv.length - 1) with h0 | h0
      · exact (List.pairwise_iff_getElem.1 hinc _ _ hi b1 h0).le
      · have : i = xv.length - 1 := by omega
        subst this; exact le_refl _
  have e0 : t.ys[0]? = some y0 := by
    obtain ⟨v, ev, hv, _⟩ := hk 0 (by omega)
    have hnode : t.node 0 = x0 := by unfold UTable.node; simp [t1]
    rw [hnode] at ev
    have := (MonotCubic.evaluate_outside hr hre (x := x0)).1 y0 (by rw [hfv]; exact hy0) (by rw [hfx]; exact fun a ha => (hle a ha).1)
    rw [this] at ev
    rw [hv, (Prod.mk.inj (Except.ok.inj ev)).1]
  have en : t.ys[t.ys.length - 1]? = some yn := by
    obtain ⟨v, ev, hv, _⟩ := hk (t.ys.length - 1) (by omega)
    have hnode : t.node (t.ys.length - 1) = xn := by
      rw [← t2]; unfold UTable.node; field_simp; ring
    rw [hnode] at ev
    have := (MonotCubic.evaluate_outside hr hre (x := xn)).2 yn (by rw [hfv]; exact hyn) (by rw [hfx]; exact fun a ha => (hle a ha).2)
    rw [this] at ev
    rw [hv, (Prod.mk.inj (Except.ok.inj ev)).1]
  have hlo : ∀ x, x ≤ x0 → t.eval x = .ok y0 := fun x hx => (uniform_outside t hp x).1 (by rw [t1]; exact hx) y0 e0
  have hhi : ∀ x, xn ≤ x → t.eval x = .ok yn := fun x hx => (uniform_outside t hp x).2 (by rw [t2]; exact hx) yn en
  refine ⟨t, et, hlo, hhi, fun hmono => ?_⟩
  have hm : ∀ x x' y y', x ≤ x' → t.eval x = .ok y → t.eval x' = .ok y' → y ≤ y' := fun x x' y y' hx hy hy' =>
    UniformMonotone.build_monotone hr c1 c2 fl et es (by rw [hfv]; exact hmono) hx hy hy'
  refine ⟨fun x => ?_, hm⟩
  obtain ⟨k, hk', l1, l2⟩ := uniform_covered t hp x
  obtain ⟨_, v, _, _, _, _, e, _⟩ := uniform_eval t hp x k _ _ (List.getElem?_eq_getElem (by omega)) (List.getElem?_eq_getElem hk') l1 l2
  refine ⟨v, e, ?_, ?_⟩
  · rcases le_total x x0 with h | h
    · rw [hlo x h] at e; exact (Except.ok.inj e).le
    · exact hm _ _ _ _ h (hlo x0 (le_refl _)) e
  · rcases le_total xn x with h | h
    · rw [hhi x h] at e; exact (Except.ok.inj e).ge
    · exact hm _ _ _ _ h e (hhi xn (le_refl _))

/-- Tables of equal spacing: outside of the table, `B` is that of the first or last pressure.  If the tabulated `B` never increases, neither does `B`, which is then always positive and between the
first and last tabulated value. -/
theorem spline_values (sqrt : Rat → Rat) (hr : MonotCubic.Spec.IsRoot sqrt) (c1 c2 : Bool) (fl : MonotCubic.Flags) {ps bs ms : List Rat} {rest : List (List Rat)} (h : DeadTable ps bs ms)
    (samples : Int) (hs : 2 ≤ samples) (cfg : Config) (z : List Rat) (p0 pn b0 bn : Rat) (hp0 : ps.head? = some p0) (hpn : ps.getLast? = some pn) (hb0 : bs.head? = some b0) (hbn : bs.getLast? = some bn) :
    ∃ d, Dead.newSpline sqrt c1 c2 fl [ps :: bs :: ms :: rest] samples = .ok d ∧
      (∀ p, p ≤ p0 → oneB (.dead d) cfg z p = .ok b0) ∧ (∀ p, pn ≤ p → oneB (.dead d) cfg z p = .ok bn) ∧
      (bs.Pairwise (· ≥ ·) → (∀ p, ∃ b, oneB (.dead d) cfg z p = .ok b ∧ bn ≤ b ∧ b ≤ b0 ∧ 0 < b) ∧
        ∀ p q b b', p ≤ q → oneB (.dead d) cfg z p = .ok b → oneB (.dead d) cfg z q = .ok b' → b' ≤ b) := by
  have hm0 : ∃ m0, ms.head? = some m0 := by
    cases e : ms with
    | nil => have h1 := h.lenM; have h2 := h.two; rw [e] at h1; simp at h1; omega
    | cons a l => exact ⟨a, rfl⟩
  have hmn : ∃ mn, ms.getLast? = some mn := by
    rw [List.getLast?_eq_getElem?]
    exact ⟨_, List.getElem?_eq_getElem (by have := h.lenM; have := h.two; omega)⟩
  obtain ⟨m0, hm0⟩ := hm0
  obtain ⟨mn, hmn⟩ := hmn
  have hb0p : 0 < b0 := h.posB b0 (List.mem_of_mem_head? (by rw [hb0]; rfl))
  have hbnp : 0 < bn := h.posB bn (List.mem_of_mem_getLast? (by rw [hbn]; rfl))
  obtain ⟨t, et, tlo, thi, tm⟩ := build_sorted hr c1 c2 fl (xv := ps) (yv := bs.map (fun b => 1 / b)) (samples := samples) h.inc h.two (by simpa using h.lenB) hs hp0 hpn
    (show _ = some (1 / b0) by rw [List.head?_map, hb0]; rfl) (show _ = some (1 / bn) by rw [List.getLast?_map, hbn]; rfl)
  obtain ⟨u, eu, _⟩ := build_sorted hr c1 c2 fl (xv := ps) (yv := ms) (samples := samples) h.inc h.two h.lenM hs hp0 hpn hm0 hmn
  have hB : ∀ p, oneB (.dead ⟨.uniform t, .uniform u⟩) cfg z p = (t.eval p >>= fdiv 1) := fun p => by rw [oneB_eq]; rfl
  refine ⟨⟨.uniform t, .uniform u⟩, ?_, fun p hp => ?_, fun p hp => ?_, fun hmono => ?_⟩
  · unfold Dead.newSpline
    rw [if_neg (by simp), show rd [ps :: bs :: ms :: rest] 0 = .ok (ps :: bs :: ms :: rest) from rfl, bind_ok, copyColumns_ok h.lenB h.lenM (fun b hb => (h.posB b hb).ne'), bind_ok]
    dsimp only
    rw [et, bind_ok, eu, bind_ok]
  · rw [hB, tlo p hp, bind_ok, fdiv_ok (by positivity)]
    congr 1
    field_simp
  · rw [hB, thi p hp, bind_ok, fdiv_ok (by positivity)]
    congr 1
    field_simp
  · obtain ⟨tv, tmono⟩ := tm (by
      rw [List.pairwise_map]
      refine hmono.imp_of_mem (fun {a b} ha hb hab => one_div_le_one_div_of_le (h.posB b hb) hab))
    constructor
    · intro p
      obtain ⟨y, e, y1, y2⟩ := tv p
      have hy : 0 < y := lt_of_lt_of_le (by positivity) y1
      rw [div_le_iff₀ hb0p] at y1
      rw [le_div_iff₀ hbnp] at y2
      refine ⟨1 / y, by rw [hB, e, bind_ok, fdiv_ok hy.ne'], ?_, ?_, by positivity⟩
      · rw [le_div_iff₀ hy]; linarith
      · rw [div_le_iff₀ hy]; linarith
    · intro p q b b' hpq hb hb'
      obtain ⟨y, e, y1, y2⟩ := tv p
      obtain ⟨y', e', y1', y2'⟩ := tv q
      have hy : 0 < y := lt_of_lt_of_le (by positivity) y1
      have hy' : 0 < y' := lt_of_lt_of_le (by positivity) y1'
      have := tmono p q y y' hpq e e'
      rw [hB, e, bind_ok, fdiv_ok hy.ne'] at hb
      rw [hB, e', bind_ok, fdiv_ok hy'.ne'] at hb'
      rw [← Except.ok.inj hb, ← Except.ok.inj hb']
      exact one_div_le_one_div_of_le hy this

/-- A table, and a pressure outside of it. -/
example : DeadTable [100, 200, 400] [12 / 10, 11 / 10, 1] [1, 2, 3] := ⟨by decide +kernel, by decide, by decide, by decide, by decide +kernel, by decide +kernel⟩

/-- Outside of the table, extrapolation of `1/B` and of viscosity may give negative values. -/
theorem dead_extrapolates_below_zero : ∃ (ps bs ms : List Rat) (d : Dead) (p b m : Rat), DeadTable ps bs ms ∧ Dead.new [[ps, bs, ms]] = .ok d ∧ 0 < p ∧
    oneB (.dead d) ⟨2, [0, 1, 2]⟩ [1, 1] p = .ok b ∧ oneMu (.dead d) ⟨2, [0, 1, 2]⟩ [1, 1] p = .ok m ∧ b < 0 ∧ m < 0 :=
  ⟨[100, 200], [1 / 2, 1 / 10], [1, 5], ⟨.nonuniform ⟨[100, 200], [2, 10], [], []⟩, .nonuniform ⟨[100, 200], [1, 5], [], []⟩⟩, 50, -1 / 2, -1,
    ⟨by decide +kernel, by decide, by decide, by decide, by decide +kernel, by decide +kernel⟩, by decide +kernel⟩

end Opm.Pvt
