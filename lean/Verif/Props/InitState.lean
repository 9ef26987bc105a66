import Verif.Spec.InitState
import Verif.Proofs.Blocks
import Verif.Proofs.MiscUtil
import Mathlib.Tactic.Ring
import Mathlib.Tactic.LinearCombination
import Mathlib.Tactic.FieldSimp
/-!
# Initial states: saturations and pressures
-/

namespace Opm.InitState
open Opm Opm.Blackoil

theorem getD_some {l : List Rat} {i : Nat} (h : i < l.length) : l[i]? = some (l.getD i 0) := by
  rw [List.getD_eq_getElem?_getD, List.getElem?_eq_getElem h]
  rfl

theorem index_inj {np a b i j : Nat} (hi : i < np) (hj : j < np) (h : np * a + i = np * b + j) : a = b ∧ i = j := by
  have hp : 0 < np := by omega
  have h1 := congrArg (· / np) h
  have h2 := congrArg (· % np) h
  simp only [Nat.mul_add_div hp, Nat.div_eq_of_lt hi, Nat.div_eq_of_lt hj, Nat.mul_add_mod, Nat.mod_eq_of_lt hi, Nat.mod_eq_of_lt hj] at h1 h2
  exact ⟨by omega, h2⟩

theorem index_lt {np n c i : Nat} (hc : c < n) (hi : i < np) : np * c + i < np * n := by
  have := Nat.mul_le_mul_left np (Nat.succ_le_of_lt hc)
  rw [Nat.mul_succ] at this
  omega

/-! ### Sizes -/

/-- Sizes after `init`, and that the second saturation is one. -/
theorem state_init (st : State) (g : SGrid) {np : Nat} (h2 : 2 ≤ np) : ∃ t, st.init g np = .ok t ∧ t.np = np ∧ t.press.length = g.cells ∧ t.fpress.length = g.faces ∧ t.flux.length = g.faces ∧ t.sat.length = np * g.cells ∧
    (∀ c, c < g.cells → t.sat[np * c + 1]? = some 1) ∧
    (st = {} → t.press = List.replicate g.cells 0 ∧ t.fpress = List.replicate g.faces 0 ∧ t.flux = List.replicate g.faces 0 ∧ ∀ c i, c < g.cells → i < np → i ≠ 1 → t.sat[np * c + i]? = some 0) := by
  unfold State.init
  obtain ⟨t, e, t1, t2, t3⟩ := loop_writes (n := g.cells) (f := fun c s => wr s (np * c + 1) 1) (s := MiscUtil.vresize st.sat (np * g.cells)) (fun c => np * c + 1) (fun _ => 1)
    (fun c hc => by rw [MiscUtil.length_vresize]; exact index_lt hc h2) (fun a b _ _ h => (index_inj h2 h2 h).1) (fun _ _ _ _ _ => rfl)
  rw [MiscUtil.length_vresize] at t1
  rw [e, bind_ok]
  refine ⟨_, rfl, rfl, MiscUtil.length_vresize _ _, MiscUtil.length_vresize _ _, MiscUtil.length_vresize _ _, t1, fun c hc => ?_, ?_⟩
  · rw [getD_some (by rw [t1]; exact index_lt hc h2), t2 c hc]
  · rintro rfl
    have z : ∀ n, MiscUtil.vresize [] n = List.replicate n 0 := fun n => by simp [MiscUtil.vresize]
    refine ⟨z _, z _, z _, fun c i hc hi h1 => ?_⟩
    rw [getD_some (by rw [t1]; exact index_lt hc hi), t3 _ (fun a _ h => h1 (index_inj h2 hi h).2.symm)]
    simp only [z, List.getD_eq_getElem?_getD, List.getElem?_replicate]
    split <;> rfl

/-- With one phase the second saturation of the last cell is outside of the array. -/
theorem init_one_phase (st : State) (g : SGrid) (h : 0 < g.cells) : st.init g 1 = .error .ub := by
  unfold State.init
  obtain ⟨n, hn⟩ : ∃ n, g.cells = n + 1 := ⟨g.cells - 1, by omega⟩
  rw [hn, loop_succ]
  cases e : loop n (fun c s => wr s (1 * c + 1) (1 : Rat)) (MiscUtil.vresize st.sat (1 * (n + 1))) with
  | error x =>
    exfalso
    obtain ⟨t, e', _⟩ := loop_writes (n := n) (f := fun c s => wr s (1 * c + 1) (1 : Rat)) (s := MiscUtil.vresize st.sat (1 * (n + 1))) (fun c => 1 * c + 1) (fun _ => 1)
      (fun c hc => by rw [MiscUtil.length_vresize]; omega) (fun a b _ _ h => by omega) (fun _ _ _ _ _ => rfl)
    rw [e'] at e
    cases e
  | ok t =>
    obtain ⟨t', e', t1, _⟩ := loop_writes (n := n) (f := fun c s => wr s (1 * c + 1) (1 : Rat)) (s := MiscUtil.vresize st.sat (1 * (n + 1))) (fun c => 1 * c + 1) (fun _ => 1)
      (fun c hc => by rw [MiscUtil.length_vresize]; omega) (fun a b _ _ h => by omega) (fun _ _ _ _ _ => rfl)
    rw [e'] at e
    cases e
    rw [bind_ok, wr_ub (by rw [t1, MiscUtil.length_vresize]; omega)]
    rfl

/-- A state which is initialised again keeps pressures, fluxes and first saturations: they may not even add up to one. -/
theorem init_keeps_old_values : ∃ st : State, st.init { dim := 1, cells := 1, faces := 1, faceCells := [], cellCent := [], faceCent := [] } 2 = .ok { np := 2, press := [3], fpress := [4], flux := [5], sat := [7 / 10, 1] } :=
  ⟨{ np := 2, press := [3], fpress := [4], flux := [5], sat := [7 / 10, 3 / 10] }, by decide +kernel⟩

/-! ### First saturations -/

/-- The first saturation of the given cells is extreme, the second is what is left, and nothing else changes. -/
theorem set_first_sat {st : State} {range : Range} {n : Nat} {lo hi : Nat → Rat} (h2 : 2 ≤ st.np) (hr : RangeOf range st.np n lo hi) (hs : st.sat.length = st.np * n) {cells : List Nat} (hc : ∀ c ∈ cells, c < n) (mx : Bool) :
    ∃ s, st.setFirstSat range cells mx = .ok { st with sat := s } ∧ s.length = st.sat.length ∧ ∀ c i, c < n → i < st.np →
      s[st.np * c + i]? = if c ∈ cells then (if i = 0 then some (if mx then hi c else lo c) else if i = 1 then some (1 - if mx then hi c else lo c) else st.sat[st.np * c + i]?) else st.sat[st.np * c + i]? := by
  unfold State.setFirstSat
  obtain ⟨a, b, er, hab⟩ := hr cells hc
  rw [er, bind_ok]
  dsimp only
  obtain ⟨s, e, s1, s2⟩ := loop_inv (n := cells.length) (f := fun ci s => do
    let cell ← rd cells ci
    let v ← rd (if mx then b else a) (st.np * ci)
    let s ← wr s (st.np * cell) v
    let x ← rd s (st.np * cell)
    wr s (st.np * cell + 1) (1 - x)) (s := st.sat) (P := fun m (s : List Rat) => s.length = st.sat.length ∧ ∀ c i, c < n → i < st.np →
      s[st.np * c + i]? = if c ∈ cells.take m then (if i = 0 then some (if mx then hi c else lo c) else if i = 1 then some (1 - if mx then hi c else lo c) else st.sat[st.np * c + i]?) else st.sat[st.np * c + i]?)
    ⟨rfl, fun c i _ _ => by simp⟩ (by
      rintro ci s hci ⟨s1, s2⟩
      have hk : cells[ci]? = some cells[ci] := List.getElem?_eq_getElem hci
      have hn : cells[ci] < n := hc _ (List.getElem_mem hci)
      have hv : (if mx then b else a)[st.np * ci]? = some (if mx then hi cells[ci] else lo cells[ci]) := by
        cases mx
        · exact (hab ci _ hk).1
        · exact (hab ci _ hk).2
      have l0 : st.np * cells[ci] < s.length := by rw [s1, hs]; exact index_lt (i := 0) hn (by omega)
      have l1 : st.np * cells[ci] + 1 < s.length := by rw [s1, hs]; exact index_lt hn h2
      rw [rd_of_getElem? hk, bind_ok, rd_of_getElem? hv, bind_ok, wr_ok l0, bind_ok, rd_of_getElem? (List.getElem?_set_self l0), bind_ok, wr_ok (by simpa using l1)]
      refine ⟨_, rfl, by simpa using s1, fun c i hcn hi => ?_⟩
      rw [List.take_add_one, hk]
      simp only [Option.toList_some, List.mem_append, List.mem_singleton]
      rw [List.getElem?_set, List.getElem?_set]
      by_cases e1 : c = cells[ci]
      · subst e1
        rw [if_pos (Or.inr rfl)]
        by_cases i1 : i = 1
        · subst i1
          rw [if_pos rfl, if_pos (by simpa using l1), if_neg Nat.one_ne_zero, if_pos rfl]
        · rw [if_neg (by omega)]
          by_cases i0 : i = 0
          · subst i0
            rw [Nat.add_zero, if_pos rfl, if_pos l0, if_pos rfl]
          · rw [if_neg (by omega), s2 _ _ hcn hi, if_neg i0, if_neg i1, ite_self]
      · rw [if_neg (fun h => e1 (index_inj h2 hi h).1.symm), if_neg (fun h : st.np * cells[ci] = st.np * c + i => e1 (index_inj (i := 0) (by omega : 0 < st.np) hi h).1.symm), s2 _ _ hcn hi]
        simp only [e1, or_false])
  rw [e, bind_ok]
  refine ⟨s, rfl, s1, ?_⟩
  rwa [List.take_length] at s2

theorem depth_ok {g : SGrid} (hg : g.Fits) {c : Nat} (hc : c < g.cells) : g.depth c = .ok (g.z c) := by
  have := hg.dim
  unfold SGrid.depth SGrid.z
  exact rd_of_getElem? (getD_some (by rw [hg.cellCent]; exact index_lt hc (by omega)))

/-- Cells below and above a depth. -/
theorem below_above {g : SGrid} (hg : g.Fits) (d : Rat) : cellsBelowAbove g d = .ok ((List.range g.cells).filter (fun c => decide (d < g.z c)), (List.range g.cells).filter (fun c => !decide (d < g.z c))) := by
  unfold cellsBelowAbove
  obtain ⟨s, e, rfl⟩ := loop_inv (n := g.cells) (f := fun c r => do
    let z ← g.depth c
    .ok (if d < z then (r.1 ++ [c], r.2) else (r.1, r.2 ++ [c]))) (s := (([], []) : List Nat × List Nat)) (P := fun m (r : List Nat × List Nat) => r = ((List.range m).filter (fun c => decide (d < g.z c)), (List.range m).filter (fun c => !decide (d < g.z c))))
    rfl (by
      rintro c r hc rfl
      dsimp only
      rw [depth_ok hg hc, bind_ok]
      refine ⟨_, rfl, ?_⟩
      rw [List.range_succ, List.filter_append, List.filter_append]
      by_cases h : d < g.z c <;> simp [h])
  exact e

/-- Water below the contact, and oil above it, or the other way round. -/
theorem water_oil_contact {g : SGrid} (hg : g.Fits) {st : State} {range : Range} {lo hi : Nat → Rat} (h2 : st.np = 2) (hr : RangeOf range 2 g.cells lo hi) (hs : st.sat.length = 2 * g.cells) (woc : Rat) (below : Bool) :
    ∃ s, initWaterOilContact g range woc below st = .ok { st with sat := s } ∧ s.length = st.sat.length ∧ ∀ c, c < g.cells →
      s[2 * c]? = some (if (woc < g.z c) = (below = true) then hi c else lo c) ∧ s[2 * c + 1]? = some (1 - if (woc < g.z c) = (below = true) then hi c else lo c) := by
  unfold initWaterOilContact
  rw [below_above hg, bind_ok]
  dsimp only
  have hm : ∀ p : Nat → Bool, ∀ c ∈ (List.range g.cells).filter p, c < g.cells := fun p c hc => List.mem_range.1 (List.mem_filter.1 hc).1
  obtain ⟨s, e, s1, s2⟩ := set_first_sat (st := st) (n := g.cells) (by omega) (h2 ▸ hr) (by rw [hs, h2])
    (cells := if below then (List.range g.cells).filter (fun c => !decide (woc < g.z c)) else (List.range g.cells).filter (fun c => decide (woc < g.z c))) (by cases below <;> exact hm _) false
  rw [e, bind_ok]
  obtain ⟨t, e', t1, t2⟩ := set_first_sat (st := { st with sat := s }) (n := g.cells) (by dsimp only; omega) (h2 ▸ hr) (by dsimp only; rw [s1, hs, h2])
    (cells := if below then (List.range g.cells).filter (fun c => decide (woc < g.z c)) else (List.range g.cells).filter (fun c => !decide (woc < g.z c))) (by cases below <;> exact hm _) true
  rw [e']
  dsimp only at t1 t2
  rw [h2] at s2 t2
  refine ⟨t, rfl, t1.trans s1, fun c hc => ?_⟩
  have m1 : ∀ p : Nat → Bool, c ∈ (List.range g.cells).filter p ↔ p c = true := fun p => by rw [List.mem_filter, List.mem_range]; exact ⟨fun h => h.2, fun h => ⟨hc, h⟩⟩
  have a0 := t2 c 0 hc (by decide)
  have a1 := t2 c 1 hc (by decide)
  rw [s2 c 0 hc (by decide)] at a0
  rw [s2 c 1 hc (by decide)] at a1
  rw [Nat.add_zero] at a0
  rw [a0, a1]
  cases below <;> by_cases h : woc < g.z c <;> simp [h, hc]

/-! ### Hydrostatic pressure -/

/-- The hydrostatic pressure is unique. -/
theorem Hydrostatic.unique {P Q : Rat → Rat} {woc rw_ ro grav dz dp : Rat} (h : Hydrostatic P woc rw_ ro grav dz dp) (k : Hydrostatic Q woc rw_ ro grav dz dp) : P = Q := by
  have hd : P woc = Q woc := by
    rcases le_total woc dz with e | e
    · have := h.below dz woc e le_rfl
      have := k.below dz woc e le_rfl
      have := h.datum; have := k.datum
      linarith
    · have := h.above dz woc e le_rfl
      have := k.above dz woc e le_rfl
      have := h.datum; have := k.datum
      linarith
  funext z
  rcases le_total woc z with e | e
  · have := h.below woc z le_rfl e
    have := k.below woc z le_rfl e
    linarith
  · have := h.above woc z le_rfl e
    have := k.above woc z le_rfl e
    linarith

/-- Pressures of constant densities are hydrostatic. -/
theorem hydrostatic_pressure {g : SGrid} (hg : g.Fits) (rw_ ro : Rat) (rest : List Rat) (woc grav dz dp : Rat) {p : List Rat} (hp : p.length = g.cells) :
    ∃ P q, Hydrostatic P woc rw_ ro grav dz dp ∧ hydrostatic g (rw_ :: ro :: rest) woc grav dz dp p = .ok q ∧ q.length = g.cells ∧ ∀ c, c < g.cells → q[c]? = some (P (g.z c)) := by
  have rho : ∀ z : Rat, rd (rw_ :: ro :: rest) (if woc < z then 0 else 1) = .ok (if woc < z then rw_ else ro) := fun z => by split <;> rfl
  unfold hydrostatic
  rw [rho, bind_ok]
  obtain ⟨q, e, q1, q2, _⟩ := loop_writes (n := g.cells) (f := fun c p => do
    let z ← g.depth c
    let r ← rd (rw_ :: ro :: rest) (if woc < z then 0 else 1)
    wr p c (dp + (woc - dz) * grav * (if woc < dz then rw_ else ro) + (z - woc) * grav * r)) (s := p) (fun c => c)
    (fun c => dp + (woc - dz) * grav * (if woc < dz then rw_ else ro) + (g.z c - woc) * grav * (if woc < g.z c then rw_ else ro)) (fun c hc => by omega) (fun _ _ _ _ h => h) (by
      intro c t hc _ _
      rw [depth_ok hg hc, bind_ok, rho, bind_ok])
  refine ⟨fun z => dp + (woc - dz) * grav * (if woc < dz then rw_ else ro) + (z - woc) * grav * (if woc < z then rw_ else ro), q, ⟨?_, fun a b ha hb => ?_, fun a b ha hb => ?_⟩, e, q1.trans hp, fun c hc => ?_⟩
  · ring
  · have k : ∀ z, woc ≤ z → (z - woc) * grav * (if woc < z then rw_ else ro) = (z - woc) * grav * rw_ := fun z hz => by
      split
      · rfl
      · next h => rw [le_antisymm (not_lt.1 h) hz]; ring
    rw [k a ha, k b hb]
    ring
  · rw [if_neg (not_lt.2 ha), if_neg (not_lt.2 hb)]
    ring
  · rw [getD_some (by omega), q2 c hc]

/-! ### Pressures of faces -/

theorem faceSide_ok {sqrt : Rat → Rat} {g : SGrid} (hg : g.Fits) {cp : List Rat} (hp : cp.length = g.cells) {f c : Nat} (hf : f < g.faces) (hc : c < g.cells) :
    faceSide sqrt g cp f (c : Int) = .ok (sqrt (g.dist2 f c), cp.getD c 0) := by
  unfold faceSide
  obtain ⟨d, e, hd⟩ := loop_inv (n := g.dim) (f := fun dd d => do
    let x ← rd g.faceCent (g.dim * f + dd)
    let y ← rdI g.cellCent (g.dim * (c : Int) + dd)
    .ok (d + (x - y) * (x - y))) (s := (0 : Rat)) (P := fun m (d : Rat) => d = ((List.range m).map (fun k => (g.faceCent.getD (g.dim * f + k) 0 - g.cellCent.getD (g.dim * c + k) 0) ^ 2)).sum)
    rfl (by
      rintro k d hk rfl
      rw [rd_of_getElem? (getD_some (by rw [hg.faceCent]; exact index_lt hf hk)), bind_ok, show (g.dim * (c : Int) + k : Int) = ((g.dim * c + k : Nat) : Int) by push_cast; rfl,
        rdI_natCast, rd_of_getElem? (getD_some (by rw [hg.cellCent]; exact index_lt hc hk)), bind_ok]
      refine ⟨_, rfl, ?_⟩
      rw [List.range_succ, List.map_append, List.sum_append]
      simp only [List.map_cons, List.map_nil, List.sum_cons, List.sum_nil, add_zero]
      ring)
  rw [e, bind_ok, rdI_natCast, rd_of_getElem? (getD_some (by omega)), bind_ok, hd]
  rfl

/-- Pressures of faces are means of the pressures of their cells. -/
theorem face_pressure {sqrt : Rat → Rat} {g : SGrid} (hg : g.Fits) (ha : Apart sqrt g) {cp fp : List Rat} (hp : cp.length = g.cells) (hf : fp.length = g.faces) :
    ∃ q, facePressure sqrt g cp fp = .ok q ∧ FaceMeans sqrt g (fun c => cp.getD c 0) q := by
  have sd : ∀ j, j < 2 * g.faces → ∃ c : Int, g.faceCells[j]? = some c ∧ (c = -1 ∨ ∃ n : Nat, c = n ∧ n < g.cells) := fun j hj => by
    have hj' : j < g.faceCells.length := by rw [hg.faceCells]; exact hj
    refine ⟨g.faceCells[j], List.getElem?_eq_getElem hj', ?_⟩
    rcases hg.sides _ (List.getElem_mem hj') with h | ⟨h1, h2⟩
    · exact Or.inl h
    · exact Or.inr ⟨g.faceCells[j].toNat, by omega, by omega⟩
  have val : ∀ f, f < g.faces → ∃ c0 c1 : Int, ∃ v, g.faceCells[2 * f]? = some c0 ∧ g.faceCells[2 * f + 1]? = some c1 ∧ faceValue sqrt g cp f c0 c1 = .ok v ∧
      (∀ c : Nat, (c0 = c ∧ c1 = -1) ∨ (c0 = -1 ∧ c1 = c) → v = cp.getD c 0) ∧ ∀ a b : Nat, c0 = a → c1 = b → v * (sqrt (g.dist2 f a) + sqrt (g.dist2 f b)) = cp.getD a 0 * sqrt (g.dist2 f b) + cp.getD b 0 * sqrt (g.dist2 f a) := by
    intro f hf
    obtain ⟨c0, e0, k0⟩ := sd (2 * f) (by omega)
    obtain ⟨c1, e1, k1⟩ := sd (2 * f + 1) (by omega)
    refine ⟨c0, c1, ?_⟩
    unfold faceValue
    rcases k0 with rfl | ⟨a, rfl, la⟩ <;> rcases k1 with rfl | ⟨b, rfl, lb⟩
    · exact ⟨0, e0, e1, by rw [if_neg (by decide), if_neg (by decide)], fun c h => by omega, fun a b h => by omega⟩
    · rw [if_neg (by decide), if_pos (by omega), faceSide_ok hg hp hf lb, bind_ok]
      refine ⟨_, e0, e1, rfl, fun c h => ?_, fun a b h => by omega⟩
      have : b = c := by omega
      subst this; rfl
    · rw [if_pos (by omega), if_neg (by decide), faceSide_ok hg hp hf la, bind_ok]
      refine ⟨_, e0, e1, rfl, fun c h => ?_, fun a b h h' => by omega⟩
      have : a = c := by omega
      subst this; rfl
    · rw [if_pos (by omega), if_pos (by omega), faceSide_ok hg hp hf la, bind_ok, faceSide_ok hg hp hf lb, bind_ok, faceMean]
      have hne := ha f a b e0 e1
      dsimp only
      rw [fdiv_ok hne, bind_ok, fdiv_ok hne, bind_ok]
      refine ⟨_, e0, e1, rfl, fun c h => by omega, fun a' b' h h' => ?_⟩
      have : a = a' := by omega
      subst this
      have : b = b' := by omega
      subst this
      field_simp
  choose! c0 c1 v e0 e1 ev hb hi using val
  unfold facePressure
  obtain ⟨q, e, q1, q2, _⟩ := loop_writes (n := g.faces) (f := fun f fp => do
    let c0 ← rd g.faceCells (2 * f)
    let c1 ← rd g.faceCells (2 * f + 1)
    let v ← faceValue sqrt g cp f c0 c1
    wr fp f v) (s := fp) (fun f => f) v (fun f h => by omega) (fun _ _ _ _ h => h) (by
      intro f t h _ _
      rw [rd_of_getElem? (e0 f h), bind_ok, rd_of_getElem? (e1 f h), bind_ok, ev f h, bind_ok])
  have lt : ∀ {f : Nat} {c : Int}, g.faceCells[2 * f]? = some c → f < g.faces := fun {f c} h => by
    have := (List.getElem?_eq_some_iff.1 h).1
    rw [hg.faceCells] at this
    omega
  refine ⟨q, e, q1.trans hf, fun f c h => ?_, fun f a b h1 h2 => ?_⟩
  · have hl : f < g.faces := h.elim (fun h => lt h.1) (fun h => lt h.1)
    rw [getD_some (by omega), q2 f hl]
    congr 1
    refine hb f hl c ?_
    rw [e0 f hl, e1 f hl] at h
    simpa using h
  · have hl := lt h1
    refine ⟨_, by rw [getD_some (show f < q.length by omega), q2 f hl], ?_⟩
    rw [e0 f hl] at h1
    rw [e1 f hl] at h2
    exact hi f hl a b (Option.some.inj h1) (Option.some.inj h2)

/-- The pressure of an inner face lies between those of its cells. -/
theorem face_between {sqrt : Rat → Rat} (hs : ∀ x, 0 ≤ sqrt x) {g : SGrid} (ha : Apart sqrt g) {P : Nat → Rat} {fp : List Rat} (h : FaceMeans sqrt g P fp) {f a b : Nat} (h1 : g.faceCells[2 * f]? = some (a : Int))
    (h2 : g.faceCells[2 * f + 1]? = some (b : Int)) : ∃ x, fp[f]? = some x ∧ min (P a) (P b) ≤ x ∧ x ≤ max (P a) (P b) := by
  obtain ⟨x, hx, e⟩ := h.inner f a b h1 h2
  refine ⟨x, hx, ?_⟩
  have pa := hs (g.dist2 f a)
  have pb := hs (g.dist2 f b)
  have hpos : 0 < sqrt (g.dist2 f a) + sqrt (g.dist2 f b) := lt_of_le_of_ne (by linarith) (Ne.symm (ha f a b h1 h2))
  constructor
  · refine le_of_mul_le_mul_right ?_ hpos
    rw [e]
    have := mul_le_mul_of_nonneg_right (min_le_left (P a) (P b)) pb
    have := mul_le_mul_of_nonneg_right (min_le_right (P a) (P b)) pa
    linarith
  · refine le_of_mul_le_mul_right ?_ hpos
    rw [e]
    have := mul_le_mul_of_nonneg_right (le_max_left (P a) (P b)) pb
    have := mul_le_mul_of_nonneg_right (le_max_right (P a) (P b)) pa
    linarith

end Opm.InitState
