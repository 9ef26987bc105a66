import Verif.Props.InitState
import Verif.Props.Blackoil
import Verif.Props.SatBasic
/-!
# Initial states from parameters and from decks
-/

namespace Opm.InitState
open Opm Opm.Blackoil Opm.Pvt

theorem FaceMeans.congr {sqrt : Rat → Rat} {g : SGrid} (hg : g.Fits) {P Q : Nat → Rat} (h : ∀ c, c < g.cells → P c = Q c) {fp : List Rat} (k : FaceMeans sqrt g P fp) : FaceMeans sqrt g Q fp := by
  have lt : ∀ {j : Nat} {c : Nat}, g.faceCells[j]? = some (c : Int) → c < g.cells := fun {j c} e => by
    have := hg.sides _ (List.mem_of_getElem? e)
    omega
  refine ⟨k.length, fun f c e => ?_, fun f a b e1 e2 => ?_⟩
  · rw [k.boundary f c e, h c (e.elim (fun e => lt e.1) (fun e => lt e.2))]
  · rw [← h a (lt e1), ← h b (lt e2)]
    exact k.inner f a b e1 e2

/-- What is common to both functions: all cells get the smallest first saturation, `F` changes saturations and pressures of cells, and then the faces follow. -/
theorem initial_of_cells {sqrt : Rat → Rat} {g : SGrid} (hg : g.Fits) (ha : Apart sqrt g) {range : Range} {lo hi : Nat → Rat} (hr : RangeOf range 2 g.cells lo hi) {F : State → M State} {sw P : Nat → Rat}
    (hF : ∀ st : State, st.np = 2 → st.sat.length = 2 * g.cells → st.press.length = g.cells → (∀ c, c < g.cells → st.sat[2 * c]? = some (lo c) ∧ st.sat[2 * c + 1]? = some (1 - lo c)) →
      ∃ s p, F st = .ok { st with sat := s, press := p } ∧ s.length = 2 * g.cells ∧ p.length = g.cells ∧ ∀ c, c < g.cells → s[2 * c]? = some (sw c) ∧ s[2 * c + 1]? = some (1 - sw c) ∧ p[c]? = some (P c)) (st : State) :
    ∃ t, (do
      let st ← st.init g 2
      let st ← st.setFirstSat range (List.range g.cells) false
      let st ← F st
      let fp ← facePressure sqrt g st.press st.fpress
      (.ok { st with fpress := fp } : M State)) = .ok t ∧ Initial sqrt g t sw P := by
  obtain ⟨a, e1, a1, a2, a3, a4, a5, _⟩ := state_init st g (np := 2) le_rfl
  obtain ⟨s, e2, s1, s2⟩ := set_first_sat (st := a) (n := g.cells) (by omega) (by rw [a1]; exact hr) (by rw [a5, a1]) (cells := List.range g.cells) (fun c hc => List.mem_range.1 hc) false
  obtain ⟨u, p, e3, u1, p1, up⟩ := hF { a with sat := s } a1 (s1.trans a5) a2 (fun c hc => by
    rw [a1] at s2
    have h0 := s2 c 0 hc (by decide)
    have h1 := s2 c 1 hc (by decide)
    rw [if_pos (List.mem_range.2 hc)] at h0 h1
    exact ⟨h0, h1⟩)
  obtain ⟨fp, e4, hfp⟩ := face_pressure hg ha (cp := p) (fp := a.fpress) p1 a3
  rw [e1, bind_ok, e2, bind_ok, e3, bind_ok]
  dsimp only
  rw [e4, bind_ok]
  refine ⟨_, rfl, u1, p1, a4, fun c hc => (up c hc).1, fun c hc => (up c hc).2.1, fun c hc => (up c hc).2.2, hfp.congr hg fun c hc => ?_⟩
  rw [List.getD_eq_getElem?_getD, (up c hc).2.2]
  rfl

/-- Properties of two phases which belong to the grid. -/
structure IncProps.For (P : IncProps) (g : SGrid) (water oil : Rat) (lo hi : Nat → Rat) : Prop where
  num : P.num = 2
  cells : P.cells = g.cells
  density : P.density = [water, oil]
  range : RangeOf P.range 2 g.cells lo hi

/-- Scenario: water below a contact. -/
theorem basic_contact {sqrt : Rat → Rat} {g : SGrid} (hg : g.Fits) (ha : Apart sqrt g) {P : IncProps} {water oil : Rat} {lo hi : Nat → Rat} (hP : P.For g water oil lo hi) {q : Params} {woc : Rat}
    (h1 : q.convection = false) (h2 : q.segregation = false) (h3 : q.woc = some woc) (grav : Rat) (st : State) :
    ∃ t p, initBasic sqrt g P q grav st = .ok t ∧ Hydrostatic p woc water oil grav woc (q.refPressure * 100000) ∧ Initial sqrt g t (fun c => if woc < g.z c then hi c else lo c) (fun c => p (g.z c)) := by
  obtain ⟨p, _, hp, _⟩ := hydrostatic_pressure hg water oil [] woc grav woc (q.refPressure * 100000) (p := List.replicate g.cells 0) (by simp)
  obtain ⟨t, e, ht⟩ := initial_of_cells hg ha hP.range (F := basicCells g P q grav) (sw := fun c => if woc < g.z c then hi c else lo c) (P := fun c => p (g.z c)) (by
    intro st n1 l1 l2 _
    unfold basicCells
    rw [h1, h2, h3]
    dsimp only
    obtain ⟨s, es, s1, s2⟩ := water_oil_contact hg (st := st) n1 hP.range l1 woc true
    obtain ⟨p', u, hp', eu, u1, u2⟩ := hydrostatic_pressure hg water oil [] woc grav woc (q.refPressure * 100000) l2
    rw [if_neg (by decide), if_neg (by decide), es, bind_ok, hP.density]
    dsimp only [barsa]
    rw [eu, bind_ok]
    refine ⟨s, u, rfl, s1.trans l1, u1, fun c hc => ?_⟩
    have := s2 c hc
    simp only [eq_iff_iff, iff_true] at this
    exact ⟨this.1, this.2, by rw [u2 c hc, hp'.unique hp]⟩) st
  refine ⟨t, p, ?_, hp, ht⟩
  unfold initBasic
  rw [if_neg (by rw [hP.num]; decide), hP.num, hP.cells]
  exact e

/-- Scenario: water above a contact, for segregation. -/
theorem basic_segregation {sqrt : Rat → Rat} {g : SGrid} (hg : g.Fits) (ha : Apart sqrt g) {P : IncProps} {water oil : Rat} {lo hi : Nat → Rat} (hP : P.For g water oil lo hi) {q : Params} {woc : Rat}
    (h1 : q.convection = false) (h2 : q.segregation = true) (h3 : q.woc = some woc) (grav : Rat) (st : State) :
    ∃ t p, initBasic sqrt g P q grav st = .ok t ∧ Hydrostatic p woc oil water grav woc (q.refPressure * 100000) ∧ Initial sqrt g t (fun c => if woc < g.z c then lo c else hi c) (fun c => p (g.z c)) := by
  obtain ⟨p, _, hp, _⟩ := hydrostatic_pressure hg oil water [] woc grav woc (q.refPressure * 100000) (p := List.replicate g.cells 0) (by simp)
  obtain ⟨t, e, ht⟩ := initial_of_cells hg ha hP.range (F := basicCells g P q grav) (sw := fun c => if woc < g.z c then lo c else hi c) (P := fun c => p (g.z c)) (by
    intro st n1 l1 l2 _
    unfold basicCells
    rw [h1, h2, h3]
    dsimp only
    obtain ⟨s, es, s1, s2⟩ := water_oil_contact hg (st := st) n1 hP.range l1 woc false
    obtain ⟨p', u, hp', eu, u1, u2⟩ := hydrostatic_pressure hg oil water [] woc grav woc (q.refPressure * 100000) l2
    rw [if_neg (by decide), if_pos rfl, es, bind_ok, hP.density, show rd [water, oil] 0 = .ok water from rfl, bind_ok, show rd [water, oil] 1 = .ok oil from rfl, bind_ok]
    dsimp only [barsa]
    rw [eu, bind_ok]
    refine ⟨s, u, rfl, s1.trans l1, u1, fun c hc => ?_⟩
    have := s2 c hc
    simp only [Bool.false_eq_true, eq_iff_iff, iff_false, ite_not] at this
    exact ⟨this.1, this.2, by rw [u2 c hc, hp'.unique hp]⟩) st
  refine ⟨t, p, ?_, hp, ht⟩
  unfold initBasic
  rw [if_neg (by rw [hP.num]; decide), hP.num, hP.cells]
  exact e

/-- Segregation without a contact is rejected. -/
theorem segregation_needs_contact {sqrt : Rat → Rat} {g : SGrid} {P : IncProps} {lo hi : Nat → Rat} (hn : P.num = 2) (hc : P.cells = g.cells) (hr : RangeOf P.range 2 g.cells lo hi) {q : Params}
    (h1 : q.convection = false) (h2 : q.segregation = true) (h3 : q.woc = none) (grav : Rat) (st : State) : initBasic sqrt g P q grav st = .error .thrown := by
  unfold initBasic
  obtain ⟨a, e1, a1, a2, a3, a4, a5, _⟩ := state_init st g (np := 2) le_rfl
  obtain ⟨s, e2, s1, s2⟩ := set_first_sat (st := a) (n := g.cells) (by omega) (by rw [a1]; exact hr) (by rw [a5, a1]) (cells := List.range g.cells) (fun c hc => List.mem_range.1 hc) false
  rw [if_neg (by rw [hn]; decide), hn, hc, e1, bind_ok, e2, bind_ok]
  unfold basicCells
  rw [h1, h2, h3]
  rfl

/-- Scenario: the same saturation everywhere; the pressure is that of the mixture, and given in the first cell. -/
theorem basic_constant {sqrt : Rat → Rat} {g : SGrid} (hg : g.Fits) (ha : Apart sqrt g) (h0 : 0 < g.cells) {P : IncProps} {water oil : Rat} {lo hi : Nat → Rat} (hP : P.For g water oil lo hi) {q : Params} {s0 : Rat}
    (h1 : q.convection = false) (h2 : q.segregation = false) (h3 : q.woc = none) (h4 : q.initSat = some s0) (grav : Rat) (st : State) :
    ∃ t p, initBasic sqrt g P q grav st = .ok t ∧ Hydrostatic p (g.z 0) (water * s0 + oil * (1 - s0)) (water * s0 + oil * (1 - s0)) grav (g.z 0) (q.refPressure * 100000) ∧ Initial sqrt g t (fun _ => s0) (fun c => p (g.z c)) := by
  obtain ⟨p, _, hp, _⟩ := hydrostatic_pressure hg (water * s0 + oil * (1 - s0)) (water * s0 + oil * (1 - s0)) [] (g.z 0) grav (g.z 0) (q.refPressure * 100000) (p := List.replicate g.cells 0) (by simp)
  obtain ⟨t, e, ht⟩ := initial_of_cells hg ha hP.range (F := basicCells g P q grav) (sw := fun _ => s0) (P := fun c => p (g.z c)) (by
    intro st n1 l1 l2 _
    unfold basicCells
    rw [h1, h2, h3, h4]
    dsimp only
    obtain ⟨s, es, s1, s2⟩ := loop_inv (n := g.cells) (f := fun c s => do
      let s ← wr s (2 * c) s0
      wr s (2 * c + 1) (1 - s0)) (s := st.sat) (P := fun m (s : List Rat) => s.length = 2 * g.cells ∧ ∀ c, c < m → s[2 * c]? = some s0 ∧ s[2 * c + 1]? = some (1 - s0)) ⟨l1, by simp⟩ (by
        rintro c s hc ⟨s1, s2⟩
        rw [wr_ok (by omega), bind_ok, wr_ok (by simp; omega)]
        refine ⟨_, rfl, by simpa using s1, fun d hd => ?_⟩
        simp only [List.getElem?_set, List.length_set]
        by_cases e : d = c
        · subst e
          refine ⟨?_, ?_⟩
          · rw [if_neg (by omega), if_pos rfl, if_pos (by omega)]
          · rw [if_pos rfl, if_pos (by omega)]
        · obtain ⟨x, y⟩ := s2 d (by omega)
          refine ⟨?_, ?_⟩
          · rw [if_neg (by omega), if_neg (by omega), x]
          · rw [if_neg (by omega), if_neg (by omega), y])
    obtain ⟨p', u, hp', eu, u1, u2⟩ := hydrostatic_pressure hg (water * s0 + oil * (1 - s0)) (water * s0 + oil * (1 - s0)) [] (g.z 0) grav (g.z 0) (q.refPressure * 100000) l2
    rw [if_neg (by decide), if_neg (by decide), constantSat, hP.cells, es, bind_ok, hP.density, show rd [water, oil] 0 = .ok water from rfl, bind_ok, show rd [water, oil] 1 = .ok oil from rfl, bind_ok, depth_ok hg h0, bind_ok]
    dsimp only [barsa]
    rw [eu, bind_ok]
    exact ⟨s, u, rfl, s1, u1, fun c hc => ⟨(s2 c hc).1, (s2 c hc).2, by rw [u2 c hc, hp'.unique hp]⟩⟩) st
  refine ⟨t, p, ?_, hp, ht⟩
  unfold initBasic
  rw [if_neg (by rw [hP.num]; decide), hP.num, hP.cells]
  exact e

/-- Scenario: no parameters.  Water is at its minimum everywhere, and the pressure is that of oil. -/
theorem basic_default {sqrt : Rat → Rat} {g : SGrid} (hg : g.Fits) (ha : Apart sqrt g) (h0 : 0 < g.cells) {P : IncProps} {water oil : Rat} {lo hi : Nat → Rat} (hP : P.For g water oil lo hi) {q : Params}
    (h1 : q.convection = false) (h2 : q.segregation = false) (h3 : q.woc = none) (h4 : q.initSat = none) (grav : Rat) (st : State) :
    ∃ t p, initBasic sqrt g P q grav st = .ok t ∧ Hydrostatic p (g.z 0) oil oil grav (g.z 0) (q.refPressure * 100000) ∧ Initial sqrt g t lo (fun c => p (g.z c)) := by
  obtain ⟨p, _, hp, _⟩ := hydrostatic_pressure hg oil oil [] (g.z 0) grav (g.z 0) (q.refPressure * 100000) (p := List.replicate g.cells 0) (by simp)
  obtain ⟨t, e, ht⟩ := initial_of_cells hg ha hP.range (F := basicCells g P q grav) (sw := lo) (P := fun c => p (g.z c)) (by
    intro st n1 l1 l2 hs
    unfold basicCells
    rw [h1, h2, h3, h4]
    dsimp only
    obtain ⟨p', u, hp', eu, u1, u2⟩ := hydrostatic_pressure hg oil oil [] (g.z 0) grav (g.z 0) (q.refPressure * 100000) l2
    rw [if_neg (by decide), if_neg (by decide), hP.density, show rd [water, oil] 1 = .ok oil from rfl, bind_ok, depth_ok hg h0, bind_ok]
    dsimp only [barsa]
    rw [eu, bind_ok]
    exact ⟨st.sat, u, rfl, l1, u1, fun c hc => ⟨(hs c hc).1, (hs c hc).2, by rw [u2 c hc, hp'.unique hp]⟩⟩) st
  refine ⟨t, p, ?_, hp, ht⟩
  unfold initBasic
  rw [if_neg (by rw [hP.num]; decide), hP.num, hP.cells]
  exact e

/-- Whether a cell is in the left half of the grid. -/
def LeftCell (g : SGrid) (c : Nat) : Prop := ∃ k, g.deckPos c = .ok k ∧ k % g.cart0 < g.cart0 / 2

theorem convection_ok {g : SGrid} {range : Range} {lo hi : Nat → Rat} (hr : RangeOf range 2 g.cells lo hi) (h0 : 0 < g.cart0) (hk : ∀ c, c < g.cells → ∃ k, g.deckPos c = .ok k) (ref : Rat) {st : State} (n1 : st.np = 2) (l1 : st.sat.length = 2 * g.cells) (l2 : st.press.length = g.cells)
    (hs : ∀ c, c < g.cells → st.sat[2 * c]? = some (lo c) ∧ st.sat[2 * c + 1]? = some (1 - lo c)) :
    ∃ s p, convection g range g.cells ref st = .ok { st with sat := s, press := p } ∧ s.length = 2 * g.cells ∧ p.length = g.cells ∧ ∀ c, c < g.cells →
      s[2 * c]? = some (open Classical in if LeftCell g c then hi c else lo c) ∧ s[2 * c + 1]? = some (1 - open Classical in if LeftCell g c then hi c else lo c) ∧ p[c]? = some ref := by
  classical
  have el : leftCells g g.cells = .ok ((List.range g.cells).filter (fun c => decide (LeftCell g c))) := by
    unfold leftCells
    obtain ⟨s, e, rfl⟩ := loop_inv (n := g.cells) (f := fun c l => do
      let gc ← g.deckPos c
      if g.cart0 = 0 then .error .ub
      else .ok (if gc % g.cart0 < g.cart0 / 2 then l ++ [c] else l)) (s := ([] : List Nat)) (P := fun m (l : List Nat) => l = (List.range m).filter (fun c => decide (LeftCell g c))) rfl (by
        rintro c l hc rfl
        obtain ⟨k, ek⟩ := hk c hc
        rw [ek, bind_ok, if_neg (by omega)]
        refine ⟨_, rfl, ?_⟩
        have iff : LeftCell g c ↔ k % g.cart0 < g.cart0 / 2 := ⟨fun ⟨k', e, h⟩ => by rw [ek] at e; cases e; exact h, fun h => ⟨k, ek, h⟩⟩
        rw [List.range_succ, List.filter_append]
        by_cases h : k % g.cart0 < g.cart0 / 2
        · rw [if_pos h]; simp [iff.2 h]
        · rw [if_neg h]; simp [mt iff.1 h])
    exact e
  unfold convection
  obtain ⟨s, e2, s1, s2⟩ := set_first_sat (st := st) (n := g.cells) (by omega) (by rw [n1]; exact hr) (by rw [l1, n1]) (cells := (List.range g.cells).filter (fun c => decide (LeftCell g c))) (fun c hc => List.mem_range.1 (List.mem_filter.1 hc).1) true
  rw [el, bind_ok, e2, bind_ok]
  refine ⟨s, _, rfl, s1.trans l1, by simpa using l2, fun c hc => ?_⟩
  rw [n1] at s2
  have h0 := s2 c 0 hc (by decide)
  have h1 := s2 c 1 hc (by decide)
  rw [Nat.add_zero, (hs c hc).1] at h0
  rw [(hs c hc).2] at h1
  have hm : (c ∈ (List.range g.cells).filter (fun c => decide (LeftCell g c))) ↔ LeftCell g c := by
    rw [List.mem_filter, List.mem_range, decide_eq_true_iff]
    exact ⟨fun h => h.2, fun h => ⟨hc, h⟩⟩
  simp only [hm] at h0 h1
  refine ⟨?_, ?_, ?_⟩
  · rw [h0]; by_cases h : LeftCell g c <;> simp [h]
  · rw [h1]; by_cases h : LeftCell g c <;> simp [h]
  · simp [l2, hc]

/-- Scenario: convection.  Water on the left, and constant pressure. -/
theorem basic_convection {sqrt : Rat → Rat} {g : SGrid} (hg : g.Fits) (ha : Apart sqrt g) {P : IncProps} {lo hi : Nat → Rat} (hn : P.num = 2) (hc : P.cells = g.cells) (hr : RangeOf P.range 2 g.cells lo hi) (h0 : 0 < g.cart0)
    (hk : ∀ c, c < g.cells → ∃ k, g.deckPos c = .ok k) {q : Params} (h1 : q.convection = true) (grav : Rat) (st : State) :
    ∃ t, initBasic sqrt g P q grav st = .ok t ∧ Initial sqrt g t (fun c => open Classical in if LeftCell g c then hi c else lo c) (fun _ => q.refPressure * 100000) := by
  obtain ⟨t, e, ht⟩ := initial_of_cells hg ha hr (F := basicCells g P q grav) (sw := fun c => open Classical in if LeftCell g c then hi c else lo c) (P := fun _ => q.refPressure * 100000) (by
    intro st n1 l1 l2 hs
    unfold basicCells
    dsimp only [barsa]
    rw [if_pos h1, hc]
    exact convection_ok hr h0 hk _ n1 l1 l2 hs) st
  refine ⟨t, ?_, ht⟩
  unfold initBasic
  rw [if_neg (by rw [hn]; decide), hn, hc]
  exact e

/-- Only two phases are accepted. -/
theorem basic_rejects {sqrt : Rat → Rat} {g : SGrid} {P : IncProps} (h : P.num ≠ 2) (q : Params) (grav : Rat) (st : State) : initBasic sqrt g P q grav st = .error .thrown := by
  unfold initBasic
  rw [if_pos h]

/-! ### From a deck -/

/-- EQUIL for water and oil: water below the contact, and hydrostatic pressure from the datum. -/
theorem deck_equil {sqrt : Rat → Rat} {g : SGrid} (hg : g.Fits) (ha : Apart sqrt g) {range : Range} {lo hi : Nat → Rat} (hr : RangeOf range 2 g.cells lo hi) (water oil grav : Rat) {d : InitDeck} (hw : d.phases.water = true) (ho : d.phases.oil = true)
    (hgas : d.phases.gas = false) {e : Equil} (he : d.equil = some [e]) (st : State) :
    ∃ t p, initFromDeck sqrt g 2 range (fun woc dz dp p => hydrostatic g [water, oil] woc grav dz dp p) d st = .ok t ∧ Hydrostatic p e.woc water oil grav e.datumZ e.datumP ∧
      Initial sqrt g t (fun c => if e.woc < g.z c then hi c else lo c) (fun c => p (g.z c)) := by
  have hu : phaseUsage d.phases = .ok ⟨2, [true, true, false], [0, 1, 2]⟩ := (phase_usage _ _).2 ⟨ho, by rw [hw]; rfl, by rw [hw, hgas]; rfl⟩
  unfold initFromDeck
  rw [hu, bind_ok, if_neg (by decide)]
  obtain ⟨a, e1, a1, a2, a3, a4, a5, _⟩ := state_init st g (np := 2) le_rfl
  rw [e1, bind_ok, deckCells, he]
  dsimp only
  rw [equilibrium, if_neg (by decide), show rd [true, true, false] Vapour = .ok false from rfl, bind_ok, if_neg (by decide), if_neg (fun h => h rfl), show rd [e] 0 = .ok e from rfl, bind_ok]
  obtain ⟨s, es, s1, s2⟩ := water_oil_contact hg (st := a) a1 hr a5 e.woc true
  rw [es, bind_ok]
  obtain ⟨p, u, hp, eu, u1, u2⟩ := hydrostatic_pressure hg water oil [] e.woc grav e.datumZ e.datumP a2
  dsimp only
  rw [eu, bind_ok, bind_ok]
  obtain ⟨fp, e4, hfp⟩ := face_pressure hg ha (cp := u) (fp := a.fpress) u1 a3
  dsimp only
  rw [e4, bind_ok]
  have s3 : ∀ c, c < g.cells → _ := fun c hc => by
    have := s2 c hc
    simp only [eq_iff_iff, iff_true] at this
    exact this
  refine ⟨_, p, rfl, hp, s1.trans a5, u1, a4, fun c hc => (s3 c hc).1, fun c hc => (s3 c hc).2, fun c hc => u2 c hc, hfp.congr hg fun c hc => ?_⟩
  rw [List.getD_eq_getElem?_getD, u2 c hc]
  rfl

/-- Positions of cells in the deck, within arrays of a length. -/
def Placed (g : SGrid) (n : Nat) : Prop := ∀ c, c < g.cells → ∃ k, g.deckPos c = .ok k ∧ k < n

theorem two_from_deck {g : SGrid} {x pd : List Rat} (hx : Placed g x.length) (hpd : pd.length = x.length) {pos other : Nat} (hpos : pos < 2) (hoth : other < 2) (hne : pos ≠ other) {s p : List Rat} (hs : s.length = 2 * g.cells) (hp : p.length = g.cells) :
    ∃ t q, twoFromDeck g x pd pos other s p = .ok (t, q) ∧ t.length = 2 * g.cells ∧ q.length = g.cells ∧ ∀ c, c < g.cells → ∃ k v, g.deckPos c = .ok k ∧ x[k]? = some v ∧ t[2 * c + pos]? = some v ∧ t[2 * c + other]? = some (1 - v) ∧ q[c]? = pd[k]? := by
  unfold twoFromDeck
  obtain ⟨⟨t, q⟩, e, t1, q1, h⟩ := loop_inv (n := g.cells) (f := fun c r => do
    let d ← g.deckPos c
    let v ← rd x d
    let s ← wr r.1 (2 * c + pos) v
    let s ← wr s (2 * c + other) (1 - v)
    let q ← rd pd d
    let p ← wr r.2 c q
    .ok (s, p)) (s := (s, p)) (P := fun m (r : List Rat × List Rat) => r.1.length = 2 * g.cells ∧ r.2.length = g.cells ∧ ∀ c, c < m → c < g.cells → ∃ k v, g.deckPos c = .ok k ∧ x[k]? = some v ∧ r.1[2 * c + pos]? = some v ∧ r.1[2 * c + other]? = some (1 - v) ∧ r.2[c]? = pd[k]?)
    ⟨hs, hp, by simp⟩ (by
      rintro c ⟨t, q⟩ hc ⟨t1, q1, h⟩
      obtain ⟨k, ek, hk⟩ := hx c hc
      dsimp only at t1 q1 h ⊢
      rw [ek, bind_ok, rd_of_getElem? (getD_some hk), bind_ok, wr_ok (by omega), bind_ok, wr_ok (by simp; omega), bind_ok, rd_of_getElem? (getD_some (by omega : k < pd.length)), bind_ok, wr_ok (by omega), bind_ok]
      refine ⟨_, rfl, by simpa using t1, by simpa using q1, fun c' hc' hcc => ?_⟩
      simp only [List.getElem?_set, List.length_set]
      by_cases e : c' = c
      · subst e
        refine ⟨k, _, ek, getD_some hk, ?_, ?_, ?_⟩
        · rw [if_neg (by omega), if_pos rfl, if_pos (by omega)]
        · rw [if_pos rfl, if_pos (by omega)]
        · rw [if_pos rfl, if_pos (by omega), getD_some (by omega)]
      · obtain ⟨k', v', r1, r2, r3, r4, r5⟩ := h c' (by omega) hcc
        refine ⟨k', v', r1, r2, ?_, ?_, ?_⟩
        · rw [if_neg (by omega), if_neg (by omega), r3]
        · rw [if_neg (by omega), if_neg (by omega), r4]
        · rw [if_neg (by omega), r5])
  exact ⟨t, q, e, t1, q1, fun c hc => h c hc hc⟩

theorem three_from_deck {g : SGrid} {sw sg pd : List Rat} (hx : Placed g sw.length) (hsg : sg.length = sw.length) (hpd : pd.length = sw.length) {s p : List Rat} (hs : s.length = 3 * g.cells) (hp : p.length = g.cells) :
    ∃ t q, threeFromDeck g sw sg pd 0 1 2 s p = .ok (t, q) ∧ t.length = 3 * g.cells ∧ q.length = g.cells ∧ ∀ c, c < g.cells → ∃ k a b, g.deckPos c = .ok k ∧ sw[k]? = some a ∧ sg[k]? = some b ∧
      t[3 * c]? = some a ∧ t[3 * c + 1]? = some (1 - a - b) ∧ t[3 * c + 2]? = some b ∧ q[c]? = pd[k]? := by
  unfold threeFromDeck
  obtain ⟨⟨t, q⟩, e, t1, q1, h⟩ := loop_inv (n := g.cells) (f := fun c r => do
    let d ← g.deckPos c
    let a ← rd sw d
    let b ← rd sg d
    let s ← wr r.1 (3 * c + 0) a
    let s ← wr s (3 * c + 1) (1 - (a + b))
    let s ← wr s (3 * c + 2) b
    let q ← rd pd d
    let p ← wr r.2 c q
    .ok (s, p)) (s := (s, p)) (P := fun m (r : List Rat × List Rat) => r.1.length = 3 * g.cells ∧ r.2.length = g.cells ∧ ∀ c, c < m → c < g.cells → ∃ k a b, g.deckPos c = .ok k ∧ sw[k]? = some a ∧ sg[k]? = some b ∧
      r.1[3 * c]? = some a ∧ r.1[3 * c + 1]? = some (1 - a - b) ∧ r.1[3 * c + 2]? = some b ∧ r.2[c]? = pd[k]?)
    ⟨hs, hp, by simp⟩ (by
      rintro c ⟨t, q⟩ hc ⟨t1, q1, h⟩
      obtain ⟨k, ek, hk⟩ := hx c hc
      dsimp only at t1 q1 h ⊢
      rw [ek, bind_ok, rd_of_getElem? (getD_some hk), bind_ok, rd_of_getElem? (getD_some (by omega : k < sg.length)), bind_ok, wr_ok (by omega), bind_ok, wr_ok (by simp; omega), bind_ok, wr_ok (by simp; omega), bind_ok,
        rd_of_getElem? (getD_some (by omega : k < pd.length)), bind_ok, wr_ok (by omega), bind_ok]
      refine ⟨_, rfl, by simpa using t1, by simpa using q1, fun c' hc' hcc => ?_⟩
      simp only [List.getElem?_set, List.length_set]
      by_cases e : c' = c
      · subst e
        refine ⟨k, _, _, ek, getD_some hk, getD_some (by omega), ?_, ?_, ?_, ?_⟩
        · rw [if_neg (by omega), if_neg (by omega), if_pos (by omega), if_pos (by omega)]
        · rw [if_neg (by omega), if_pos rfl, if_pos (by omega), sub_sub]
        · rw [if_pos rfl, if_pos (by omega)]
        · rw [if_pos rfl, if_pos (by omega), getD_some (by omega)]
      · obtain ⟨k', a', b', r1, r2, r3, r4, r5, r6, r7⟩ := h c' (by omega) hcc
        refine ⟨k', a', b', r1, r2, r3, ?_, ?_, ?_, ?_⟩
        · rw [if_neg (by omega), if_neg (by omega), if_neg (by omega), r4]
        · rw [if_neg (by omega), if_neg (by omega), if_neg (by omega), r5]
        · rw [if_neg (by omega), if_neg (by omega), if_neg (by omega), r6]
        · rw [if_neg (by omega), r7])
  exact ⟨t, q, e, t1, q1, fun c hc => h c hc hc⟩

/-- Saturations of a cell of two phases given for water, or for gas without water: the phases are in the order water, oil, gas. -/
theorem deck_two_phases {sqrt : Rat → Rat} {g : SGrid} (hg : g.Fits) (ha : Apart sqrt g) (range : Range) (hydro : Rat → Rat → Rat → List Rat → M (List Rat)) {d : InitDeck} (ho : d.phases.oil = true) (hwg : d.phases.water = !d.phases.gas) (he : d.equil = none)
    {pd x : List Rat} (hp : d.pressure = some pd) (hx : (if d.phases.water then d.swat else d.sgas) = some x) (hpl : Placed g x.length) (hl : pd.length = x.length) (st : State) :
    ∃ t, initFromDeck sqrt g 2 range hydro d st = .ok t ∧ t.press.length = g.cells ∧ t.sat.length = 2 * g.cells ∧ FaceMeans sqrt g (fun c => t.press.getD c 0) t.fpress ∧
      ∀ c, c < g.cells → ∃ k v, g.deckPos c = .ok k ∧ x[k]? = some v ∧ t.press[c]? = pd[k]? ∧ t.sat[2 * c]? = some (if d.phases.water then v else 1 - v) ∧ t.sat[2 * c + 1]? = some (if d.phases.water then 1 - v else v) := by
  have hu : phaseUsage d.phases = .ok ⟨2, [d.phases.water, true, d.phases.gas], [0, d.phases.water.toNat, d.phases.water.toNat + 1]⟩ :=
    (phase_usage _ _).2 ⟨ho, by rw [hwg]; cases d.phases.gas <;> rfl, by rw [hwg]; cases d.phases.gas <;> rfl⟩
  unfold initFromDeck
  rw [hu, bind_ok, if_neg (by dsimp only; decide)]
  obtain ⟨a, e1, a1, a2, a3, a4, a5, _⟩ := state_init st g (np := 2) le_rfl
  rw [e1, bind_ok, deckCells, he, hp]
  dsimp only
  unfold valuesFromDeck
  dsimp only
  rw [show rd [0, d.phases.water.toNat, d.phases.water.toNat + 1] Aqua = .ok 0 from rfl, bind_ok, show rd [0, d.phases.water.toNat, d.phases.water.toNat + 1] Liquid = .ok d.phases.water.toNat from rfl, bind_ok,
    show rd [0, d.phases.water.toNat, d.phases.water.toNat + 1] Vapour = .ok (d.phases.water.toNat + 1) from rfl, bind_ok, show rd [d.phases.water, true, d.phases.gas] Aqua = .ok d.phases.water from rfl, bind_ok, deckArrays, if_pos rfl]
  cases hw : d.phases.water with
  | true =>
    rw [hw, if_pos rfl] at hx
    rw [if_pos rfl, hx]
    dsimp only
    obtain ⟨s, q, e, s1, q1, h⟩ := two_from_deck (pos := 0) (other := 1) hpl hl (by decide) (by decide) (by decide) a5 a2
    rw [show (0 + 1) % 2 = 1 from rfl, e, bind_ok, bind_ok]
    obtain ⟨fp, e4, hfp⟩ := face_pressure hg ha (cp := q) (fp := a.fpress) q1 a3
    dsimp only
    rw [e4, bind_ok]
    refine ⟨_, rfl, q1, s1, hfp, fun c hc => ?_⟩
    obtain ⟨k, v, r1, r2, r3, r4, r5⟩ := h c hc
    exact ⟨k, v, r1, r2, r5, r3, r4⟩
  | false =>
    rw [hw, if_neg (by decide)] at hx
    rw [if_neg (by decide), hx]
    dsimp only
    obtain ⟨s, q, e, s1, q1, h⟩ := two_from_deck (pos := 1) (other := 0) hpl hl (by decide) (by decide) (by decide) a5 a2
    rw [show false.toNat + 1 = 1 from rfl, show false.toNat = 0 from rfl, e, bind_ok, bind_ok]
    obtain ⟨fp, e4, hfp⟩ := face_pressure hg ha (cp := q) (fp := a.fpress) q1 a3
    dsimp only
    rw [e4, bind_ok]
    refine ⟨_, rfl, q1, s1, hfp, fun c hc => ?_⟩
    obtain ⟨k, v, r1, r2, r3, r4, r5⟩ := h c hc
    exact ⟨k, v, r1, r2, r5, r4, r3⟩

/-- Saturations of three phases: water and gas are given, oil is what is left. -/
theorem deck_three_phases {sqrt : Rat → Rat} {g : SGrid} (hg : g.Fits) (ha : Apart sqrt g) (range : Range) (hydro : Rat → Rat → Rat → List Rat → M (List Rat)) {d : InitDeck} (ho : d.phases.oil = true) (hw : d.phases.water = true) (hgas : d.phases.gas = true) (he : d.equil = none)
    {pd sw sg : List Rat} (hp : d.pressure = some pd) (hsw : d.swat = some sw) (hsg : d.sgas = some sg) (hpl : Placed g sw.length) (hl : pd.length = sw.length) (hl' : sg.length = sw.length) (st : State) :
    ∃ t, initFromDeck sqrt g 3 range hydro d st = .ok t ∧ t.press.length = g.cells ∧ t.sat.length = 3 * g.cells ∧ FaceMeans sqrt g (fun c => t.press.getD c 0) t.fpress ∧
      ∀ c, c < g.cells → ∃ k a b, g.deckPos c = .ok k ∧ sw[k]? = some a ∧ sg[k]? = some b ∧ t.press[c]? = pd[k]? ∧ t.sat[3 * c]? = some a ∧ t.sat[3 * c + 1]? = some (1 - a - b) ∧ t.sat[3 * c + 2]? = some b := by
  have hu : phaseUsage d.phases = .ok ⟨3, [true, true, true], [0, 1, 2]⟩ := (phase_usage _ _).2 ⟨ho, by rw [hw]; rfl, by rw [hw, hgas]; rfl⟩
  unfold initFromDeck
  rw [hu, bind_ok, if_neg (by decide)]
  obtain ⟨a, e1, a1, a2, a3, a4, a5, _⟩ := state_init st g (np := 3) (by decide)
  rw [e1, bind_ok, deckCells, he, hp]
  dsimp only
  unfold valuesFromDeck
  dsimp only
  rw [show rd [0, 1, 2] Aqua = .ok 0 from rfl, bind_ok, show rd [0, 1, 2] Liquid = .ok 1 from rfl, bind_ok, show rd [0, 1, 2] Vapour = .ok 2 from rfl, bind_ok, show rd [true, true, true] Aqua = .ok true from rfl, bind_ok, deckArrays, if_neg (by decide), if_pos rfl, hsw, hsg]
  dsimp only
  obtain ⟨s, q, e, s1, q1, h⟩ := three_from_deck hpl hl' hl a5 a2
  rw [e, bind_ok, bind_ok]
  obtain ⟨fp, e4, hfp⟩ := face_pressure hg ha (cp := q) (fp := a.fpress) q1 a3
  dsimp only
  rw [e4, bind_ok]
  refine ⟨_, rfl, q1, s1, hfp, fun c hc => ?_⟩
  obtain ⟨k, x, y, r1, r2, r3, r4, r5, r6, r7⟩ := h c hc
  exact ⟨k, x, y, r1, r2, r3, r7, r4, r5, r6⟩

/-- Decks which cannot be used are rejected: neither EQUIL nor PRESSURE; properties with another number of phases; EQUIL with gas or with regions; missing saturations. -/
theorem deck_rejects {sqrt : Rat → Rat} {g : SGrid} (range : Range) (hydro : Rat → Rat → Rat → List Rat → M (List Rat)) {d : InitDeck} {num : Nat} (st : State)
    (h : ¬(d.phases.oil = true ∧ (d.phases.water || d.phases.gas) = true) ∨ num ≠ d.phases.water.toNat + 1 + d.phases.gas.toNat ∨ (d.equil = none ∧ d.pressure = none) ∨ (∃ l, d.equil = some l ∧ (d.phases.gas = true ∨ l.length ≠ 1)) ∨
      (d.equil = none ∧ (d.phases.water = true ∧ d.swat = none ∨ d.phases.gas = true ∧ d.sgas = none))) :
    initFromDeck sqrt g num range hydro d st = .error .thrown := by
  unfold initFromDeck
  by_cases hp : d.phases.oil = true ∧ (d.phases.water || d.phases.gas) = true
  · have hu := (phase_usage d.phases _).2 ⟨hp.1, hp.2, rfl⟩
    rw [hu, bind_ok]
    by_cases hn : num = d.phases.water.toNat + 1 + d.phases.gas.toNat
    · rw [if_neg (not_not.2 hn)]
      replace h := (h.resolve_left (not_not.2 hp)).resolve_left (not_not.2 hn)
      have n2 : 2 ≤ num := by
        rw [hn]
        have := hp.2
        revert this
        cases d.phases.water <;> cases d.phases.gas <;> decide
      obtain ⟨a, e1, a1, a2, a3, a4, a5, _⟩ := state_init st g n2
      rw [e1, bind_ok]
      have : deckCells g range hydro d ⟨d.phases.water.toNat + 1 + d.phases.gas.toNat, [d.phases.water, true, d.phases.gas], [0, d.phases.water.toNat, d.phases.water.toNat + 1]⟩ a = .error .thrown := by
        unfold deckCells
        rcases h with ⟨h1, h2⟩ | ⟨l, h1, h2⟩ | ⟨h1, h2⟩
        · rw [h1, h2]
        · rw [h1]
          dsimp only
          unfold equilibrium
          dsimp only
          split
          · rfl
          · next hh =>
            rw [show rd [d.phases.water, true, d.phases.gas] Vapour = .ok d.phases.gas from rfl, bind_ok]
            cases hgas : d.phases.gas with
            | true => rw [if_pos rfl]
            | false =>
              rw [if_neg (by decide), if_pos (h2.resolve_left (by rw [hgas]; decide))]
        · rw [h1]
          cases hpr : d.pressure with
          | none => rfl
          | some pd =>
            dsimp only
            unfold valuesFromDeck
            dsimp only
            rw [show rd [0, d.phases.water.toNat, d.phases.water.toNat + 1] Aqua = .ok 0 from rfl, bind_ok, show rd [0, d.phases.water.toNat, d.phases.water.toNat + 1] Liquid = .ok d.phases.water.toNat from rfl, bind_ok,
              show rd [0, d.phases.water.toNat, d.phases.water.toNat + 1] Vapour = .ok (d.phases.water.toNat + 1) from rfl, bind_ok, show rd [d.phases.water, true, d.phases.gas] Aqua = .ok d.phases.water from rfl, bind_ok]
            have : ∀ w o v, deckArrays g d (d.phases.water.toNat + 1 + d.phases.gas.toNat) d.phases.water w o v pd a.sat a.press = .error .thrown := fun w o v => by
              unfold deckArrays
              have := hp.2
              rcases h2 with ⟨k1, k2⟩ | ⟨k1, k2⟩
              · rw [k1, k2]
                cases d.phases.gas <;> rfl
              · rw [k1, k2]
                cases d.phases.water
                · rfl
                · cases d.swat <;> rfl
            rw [this]
            rfl
      rw [this]
      rfl
    · rw [if_pos hn]
  · rw [phase_usage_throws _ hp]
    rfl

end Opm.InitState
