import Verif.Model.Tof
import Verif.Proofs.Sweep
import Verif.Proofs.GridSums
import Mathlib.Tactic.Linarith
import Mathlib.Tactic.Ring
import Mathlib.Tactic.FieldSimp
import Mathlib.Algebra.Order.Field.Rat
import Mathlib.Algebra.BigOperators.Ring.Finset
import Mathlib.Algebra.Order.BigOperators.Group.Finset
/-!
# The time of flight in one cell
-/

namespace Opm.Tof
open Opm

variable {g : GridTopo} {flux : List Rat}

/-- What face `f` brings into cell `c` of the quantity `x`, with a minus sign. -/
def con (g : GridTopo) (flux : List Rat) (c f : Nat) (x : Nat → Rat) : Rat := -∑ u ∈ Finset.range g.nc, g.faceFlow flux u c f * x u

theorem con_congr {c f : Nat} {x y : Nat → Rat} (hv : g.Valid) (h : ∀ u, u ≠ c → x u = y u) : con g flux c f x = con g flux c f y := by
  unfold con
  congr 1
  refine Finset.sum_congr rfl fun u _ => ?_
  by_cases hu : u = c
  · subst hu
    have : g.faceFlow flux u u f = 0 := by
      unfold GridTopo.faceFlow
      rw [if_neg, if_neg]
      · rintro ⟨h1, h2⟩
        exact hv.distinct f _ _ ⟨h1, h2⟩ (by omega) rfl
      · rintro ⟨h1, h2⟩
        exact hv.distinct f _ _ ⟨h1, h2⟩ (by omega) rfl
    rw [this, zero_mul, zero_mul]
  · rw [h u hu]

/-- The face seen from the cell. -/
theorem cellFlux_ok (hv : g.Valid) (hfl : flux.length = g.nf) {c f : Nat} (hf : f < g.nf) (hh : g.HasFace c f) :
    ∃ other, cellFlux g flux c f = .ok (g.faceOut flux c f, other) ∧
      ((other = -1 ∧ ∀ x, con g flux c f x = 0) ∨ ∃ o : Nat, other = o ∧ o < g.nc ∧ o ≠ c ∧ ∀ x, con g flux c f x = min (g.faceOut flux c f) 0 * x o) := by
  obtain ⟨a, b, hs⟩ := hv.sides hf
  obtain ⟨ra, rb⟩ := hv.side_range hs
  have hq : flux[f]? = some (flux.getD f 0) := getElem?_getD (by omega)
  unfold cellFlux con GridTopo.faceOut GridTopo.faceFlow
  rw [rd_of_getElem? hs.1, bind_ok, rd_of_getElem? hq, bind_ok]
  simp only [hs.1, hs.2, Option.some.injEq]
  have hmin : ∀ q : Rat, -(max (-q) 0) = min q 0 := by
    intro q
    rcases le_total q 0 with h | h
    · rw [max_eq_left (by linarith), min_eq_left h, neg_neg]
    · rw [max_eq_right (by linarith), min_eq_right h, neg_zero]
  by_cases hac : (c : Int) = a
  · subst hac
    have hne := hv.distinct f _ _ hs (by omega)
    rw [if_pos rfl, rd_of_getElem? hs.2, bind_ok, if_pos rfl, if_neg hne.symm, sub_zero]
    refine ⟨b, rfl, ?_⟩
    rcases rb with rfl | rb
    · refine .inl ⟨rfl, fun x => ?_⟩
      rw [Finset.sum_eq_zero, neg_zero]
      intro u _
      rw [if_neg (by omega), if_neg (by omega), zero_mul]
    · obtain ⟨o, rfl⟩ : ∃ o : Nat, b = o := ⟨b.toNat, by omega⟩
      refine .inr ⟨o, rfl, by omega, by omega, fun x => ?_⟩
      rw [Finset.sum_eq_single o]
      · rw [if_neg (by omega), if_pos ⟨rfl, rfl⟩, ← hmin, neg_mul]
      · intro u _ hu
        rw [if_neg (by omega), if_neg (by omega), zero_mul]
      · intro h
        exact absurd (Finset.mem_range.2 (by omega)) h
  · have hbc : b = (c : Int) := by
      rcases (hv.agree c f a b hs).1 hh with h | h
      · exact absurd h.symm hac
      · exact h
    subst hbc
    rw [if_neg hac, if_neg (fun h => hac h.symm), if_pos rfl, zero_sub]
    refine ⟨a, rfl, ?_⟩
    rcases ra with rfl | ra
    · refine .inl ⟨rfl, fun x => ?_⟩
      rw [Finset.sum_eq_zero, neg_zero]
      intro u _
      rw [if_neg (by omega), if_neg (by omega), zero_mul]
    · obtain ⟨o, rfl⟩ : ∃ o : Nat, a = o := ⟨a.toNat, by omega⟩
      refine .inr ⟨o, rfl, by omega, by omega, fun x => ?_⟩
      rw [Finset.sum_eq_single o]
      · rw [if_pos ⟨rfl, rfl⟩, ← hmin, neg_neg, neg_mul]
      · intro u _ hu
        rw [if_neg (by omega), if_neg (by omega), zero_mul]
      · intro h
        exact absurd (Finset.mem_range.2 (by omega)) h

/-! ### Tracers -/

/-- Tracer `tr` in cell `c`. -/
def entry (nt : Nat) (tracer : List Rat) (c tr : Nat) : Rat := if tr < nt then tracer.getD (nt * c + tr) 0 else 0

theorem idx_inj {nt c tr c' tr' : Nat} (h : tr < nt) (h' : tr' < nt) : nt * c + tr = nt * c' + tr' ↔ c = c' ∧ tr = tr' := by
  constructor
  · intro e
    have e1 : (nt * c + tr) / nt = c := by rw [Nat.mul_add_div (by omega), Nat.div_eq_of_lt h, Nat.add_zero]
    have e2 : (nt * c' + tr') / nt = c' := by rw [Nat.mul_add_div (by omega), Nat.div_eq_of_lt h', Nat.add_zero]
    have hc : c = c' := by rw [← e1, ← e2, e]
    subst hc
    exact ⟨rfl, by omega⟩
  · rintro ⟨rfl, rfl⟩; rfl

theorem idx_lt {nt nc c tr : Nat} (hc : c < nc) (h : tr < nt) : nt * c + tr < nc * nt := by
  have : nt * (c + 1) ≤ nt * nc := Nat.mul_le_mul_left _ hc
  rw [Nat.mul_comm nc nt]
  rw [Nat.mul_add] at this
  omega

theorem tracerInflow_ok {nt nc c o : Nat} {q : Rat} {tracer : List Rat} (hc : c < nc) (ho : o < nc) (hoc : o ≠ c) (hl : tracer.length = nc * nt) :
    ∃ t, tracerInflow nt c o q tracer = .ok t ∧ t.length = nc * nt ∧
      ∀ c' tr, entry nt t c' tr = entry nt tracer c' tr + if c' = c then q * entry nt tracer o tr else 0 := by
  obtain ⟨t, e, h1, h2⟩ := loop_inv (n := nt) (s := tracer) (f := fun tr tracer => do
      let v ← rdI tracer (nt * (o : Int) + tr)
      addAt tracer (nt * c + tr) (q * v)) (fun k (t : List Rat) => t.length = nc * nt ∧
      ∀ c' tr, entry nt t c' tr = entry nt tracer c' tr + if c' = c ∧ tr < k then q * entry nt tracer o tr else 0)
    ⟨hl, fun c' tr => by simp⟩
    (by
      rintro k t hk ⟨h1, h2⟩
      have i1 := idx_lt ho hk
      have i2 := idx_lt hc hk
      rw [show (nt : Int) * (o : Int) + (k : Int) = ((nt * o + k : Nat) : Int) by push_cast; rfl, rdI_natCast,
        rd_of_getElem? (getElem?_getD (by omega)), bind_ok, addAt_ok (by omega)]
      refine ⟨_, rfl, by simp [h1], fun c' tr => ?_⟩
      by_cases ht : tr < nt
      · have h3 := h2 c' tr
        have h4 := h2 o k
        simp only [entry, ht, hk, if_true] at h3 h4 ⊢
        rw [if_neg (by omega), add_zero] at h4
        rw [getD_addAt (by omega), h3, h4]
        by_cases hcc : c' = c ∧ tr = k
        · obtain ⟨rfl, rfl⟩ := hcc
          rw [if_pos rfl, if_neg (by omega), if_pos ⟨rfl, by omega⟩, add_zero]
        · rw [if_neg (show ¬nt * c' + tr = nt * c + k by rw [idx_inj ht hk]; exact hcc), add_zero]
          congr 1
          by_cases h5 : c' = c ∧ tr < k
          · rw [if_pos h5, if_pos ⟨h5.1, by omega⟩]
          · rw [if_neg h5, if_neg (by rintro ⟨rfl, h6⟩; exact h5 ⟨rfl, by simp only [true_and] at hcc; omega⟩)]
      · simp [entry, ht])
  refine ⟨t, e, h1, fun c' tr => ?_⟩
  rw [h2]
  congr 1
  by_cases ht : tr < nt
  · simp [ht]
  · simp [ht, entry]

theorem tracerScale_ok {nt nc c : Nat} {d : Rat} {tracer : List Rat} (hc : c < nc) (hd : d ≠ 0) (hl : tracer.length = nc * nt) :
    ∃ t, tracerScale nt c d tracer = .ok t ∧ t.length = nc * nt ∧
      ∀ c' tr, entry nt t c' tr = if c' = c then entry nt tracer c tr * (-1 / d) else entry nt tracer c' tr := by
  obtain ⟨t, e, h1, h2⟩ := loop_inv (n := nt) (s := tracer) (f := fun tr tracer => do
      let w ← fdiv (-1) d
      let x ← rd tracer (nt * c + tr)
      wr tracer (nt * c + tr) (x * w)) (fun k (t : List Rat) => t.length = nc * nt ∧
      ∀ c' tr, entry nt t c' tr = if c' = c ∧ tr < k then entry nt tracer c tr * (-1 / d) else entry nt tracer c' tr)
    ⟨hl, fun c' tr => by simp⟩
    (by
      rintro k t hk ⟨h1, h2⟩
      have i2 := idx_lt hc hk
      rw [fdiv, if_neg hd, bind_ok, rd_of_getElem? (getElem?_getD (by omega)), bind_ok, wr_ok (by omega)]
      refine ⟨_, rfl, by simp [h1], fun c' tr => ?_⟩
      by_cases ht : tr < nt
      · have h3 := h2 c' tr
        have h4 := h2 c k
        simp only [entry, ht, hk, if_true] at h3 h4 ⊢
        rw [if_neg (by omega)] at h4
        by_cases hcc : c' = c ∧ tr = k
        · obtain ⟨rfl, rfl⟩ := hcc
          rw [if_pos ⟨rfl, by omega⟩, ← h4]
          have : nt * c' + tr < t.length := by omega
          simp [List.getD_eq_getElem?_getD, this]
        · have hne : nt * c + k ≠ nt * c' + tr := by
            rw [Ne, idx_inj hk ht]
            rintro ⟨rfl, rfl⟩
            exact hcc ⟨rfl, rfl⟩
          have : (t.set (nt * c + k) (t.getD (nt * c + k) 0 * (-1 / d))).getD (nt * c' + tr) 0 = t.getD (nt * c' + tr) 0 := by
            simp [List.getD_eq_getElem?_getD, hne]
          rw [this, h3]
          by_cases h5 : c' = c ∧ tr < k
          · rw [if_pos h5, if_pos ⟨h5.1, by omega⟩]
          · rw [if_neg h5, if_neg (by rintro ⟨rfl, h6⟩; exact h5 ⟨rfl, by simp only [true_and] at hcc; omega⟩)]
      · simp [entry, ht])
  refine ⟨t, e, h1, fun c' tr => ?_⟩
  rw [h2]
  by_cases ht : tr < nt
  · simp [ht]
  · simp [ht, entry]

/-! ### One face and one cell -/

/-- The quantities accumulated over the faces of a cell. -/
def view (nt : Nat) (a : Acc) : Option (Option (Nat × Nat)) → Rat
  | none => a.up
  | some none => a.down
  | some (some (c, tr)) => entry nt a.tracer c tr

/-- What a face adds to them. -/
def gain (g : GridTopo) (flux tof : List Rat) (nt : Nat) (tracer : List Rat) (c f : Nat) : Option (Option (Nat × Nat)) → Rat
  | none => con g flux c f (fun u => tof.getD u 0)
  | some none => max (g.faceOut flux c f) 0
  | some (some (c', tr)) => if c' = c then con g flux c f (fun u => entry nt tracer u tr) else 0

theorem tofFace_ok (hv : g.Valid) (hfl : flux.length = g.nf) {tof tracer : List Rat} {nt c i : Nat} (hc : c < g.nc) (ht : tof.length = g.nc) (h1 : g.cellFacepos.getD c 0 ≤ i)
    (h2 : i < g.cellFacepos.getD (c + 1) 0) {a : Acc} (hl : a.tracer.length = g.nc * nt) (ha : ∀ u tr, u ≠ c → entry nt a.tracer u tr = entry nt tracer u tr) :
    ∃ a', tofFace g flux tof nt c i a = .ok a' ∧ a'.tracer.length = g.nc * nt ∧ (∀ u tr, u ≠ c → entry nt a'.tracer u tr = entry nt tracer u tr) ∧
      ∀ r, view nt a' r = view nt a r + gain g flux tof nt tracer c (g.cellFaces.getD i 0) r := by
  obtain ⟨f, hf, hlt⟩ := hv.face_at hc h2
  have ef : g.cellFaces.getD i 0 = f := by simp [List.getD_eq_getElem?_getD, hf]
  obtain ⟨other, e, hother⟩ := cellFlux_ok hv hfl hlt (GridTopo.hasFace_of hv hc h1 h2 hf)
  unfold tofFace
  rw [rd_of_getElem? hf, bind_ok, e, bind_ok, ef]
  simp only
  by_cases hneg : g.faceOut flux c f < 0
  · rw [if_pos hneg]
    rcases hother with ⟨rfl, hz⟩ | ⟨o, rfl, ho, hoc, hcon⟩
    · rw [if_neg (by simp)]
      refine ⟨a, rfl, hl, ha, fun r => ?_⟩
      match r with
      | none => simp [view, gain, hz]
      | some none => simp [view, gain, max_eq_right hneg.le]
      | some (some (c', tr)) => simp [view, gain, hz]
    · obtain ⟨t, et, tl, tv⟩ := tracerInflow_ok (nt := nt) (q := g.faceOut flux c f) hc ho hoc hl
      rw [if_pos (by omega), rdI_natCast, rd_of_getElem? (getElem?_getD (by omega)), bind_ok, et, bind_ok]
      refine ⟨_, rfl, tl, fun u tr hu => ?_, fun r => ?_⟩
      · simp only
        rw [tv, if_neg hu, add_zero, ha u tr hu]
      · match r with
        | none => simp [view, gain, hcon, min_eq_left hneg.le]
        | some none => simp [view, gain, max_eq_right hneg.le]
        | some (some (c', tr)) =>
          simp only [view, gain, tv]
          rw [hcon, min_eq_left hneg.le, ha o tr hoc]
  · rw [if_neg hneg]
    have hz : ∀ x, con g flux c f x = 0 := by
      intro x
      rcases hother with ⟨-, hz⟩ | ⟨o, -, -, -, hcon⟩
      · exact hz x
      · rw [hcon, min_eq_right (not_lt.1 hneg), zero_mul]
    refine ⟨_, rfl, hl, ha, fun r => ?_⟩
    match r with
    | none => simp [view, gain, hz]
    | some none => simp [view, gain, max_eq_left (not_lt.1 hneg)]
    | some (some (c', tr)) => simp [view, gain, hz]

theorem sum_con (hv : g.Valid) {c : Nat} (hc : c < g.nc) (x : Nat → Rat) :
    ∑ i ∈ Finset.Ico (g.cellFacepos.getD c 0) (g.cellFacepos.getD (c + 1) 0), con g flux c (g.cellFaces.getD i 0) x =
      -∑ u ∈ Finset.range g.nc, g.flowRate flux u c * x u := by
  rw [GridTopo.sum_row hv hc (fun f => con g flux c f x)]
  unfold con GridTopo.flowRate
  rw [Finset.sum_neg_distrib, Finset.sum_comm]
  congr 1
  refine Finset.sum_congr rfl fun u _ => ?_
  rw [Finset.sum_mul, Finset.sum_filter]
  refine Finset.sum_congr rfl fun f _ => ?_
  by_cases h : g.faceCells[2 * f]? = some (c : Int) ∨ g.faceCells[2 * f + 1]? = some (c : Int)
  · rw [if_pos h]
  · rw [if_neg h]
    unfold GridTopo.faceFlow
    rw [if_neg (fun h' => h (.inr h'.2)), if_neg (fun h' => h (.inl h'.1)), zero_mul]

theorem sum_out (hv : g.Valid) {c : Nat} (hc : c < g.nc) :
    ∑ i ∈ Finset.Ico (g.cellFacepos.getD c 0) (g.cellFacepos.getD (c + 1) 0), max (g.faceOut flux c (g.cellFaces.getD i 0)) 0 = g.outflow flux c := by
  rw [GridTopo.sum_row hv hc (fun f => max (g.faceOut flux c f) 0)]
  unfold GridTopo.outflow
  rw [Finset.sum_filter]
  refine Finset.sum_congr rfl fun f _ => ?_
  by_cases h : g.faceCells[2 * f]? = some (c : Int) ∨ g.faceCells[2 * f + 1]? = some (c : Int)
  · rw [if_pos h]
  · rw [if_neg h]
    unfold GridTopo.faceOut
    rw [if_neg (fun h' => h (.inl h')), if_neg (fun h' => h (.inr h'))]
    simp

/-- The values of a cell: its time of flight and its tracers. -/
def cellValue (nt : Nat) (s : List Rat × List Rat) (c : Nat) : Rat × (Nat → Rat) := (s.1.getD c 0, entry nt s.2 c)

/-- The new values of a cell. -/
def newValue (g : GridTopo) (flux pv src : List Rat) (d : Nat) (v : Rat × (Nat → Rat)) (x : Nat → Rat × (Nat → Rat)) : Rat × (Nat → Rat) :=
  ((pv.getD d 0 + ∑ u ∈ Finset.range g.nc, g.flowRate flux u d * (x u).1) / g.throughput flux src d,
   fun tr => if src.getD d 0 ≤ 0 then (v.2 tr - ∑ u ∈ Finset.range g.nc, g.flowRate flux u d * (x u).2 tr) * (-1 / g.throughput flux src d)
     else v.2 tr - ∑ u ∈ Finset.range g.nc, g.flowRate flux u d * (x u).2 tr)

theorem solveSingleCell_ok (hv : g.Valid) (hfl : flux.length = g.nf) {pv src : List Rat} (hp : g.nc ≤ pv.length) (hs : g.nc ≤ src.length) {nt d : Nat} (hd : d < g.nc)
    (hpos : g.throughput flux src d ≠ 0) {s : List Rat × List Rat} (h1 : s.1.length = g.nc) (h2 : s.2.length = g.nc * nt) :
    ∃ s', solveSingleCell g flux pv src nt d s = .ok s' ∧ (s'.1.length = g.nc ∧ s'.2.length = g.nc * nt) ∧
      ∀ c, cellValue nt s' c = if c = d then newValue g flux pv src d (cellValue nt s d) (cellValue nt s) else cellValue nt s c := by
  have hsrc : src[d]? = some (src.getD d 0) := getElem?_getD (by omega)
  have hpv : pv[d]? = some (pv.getD d 0) := getElem?_getD (by omega)
  have hmono : g.cellFacepos.getD d 0 ≤ g.cellFacepos.getD (d + 1) 0 := Graph.ia_mono hv.csr (i := d) (j := d + 1) (by omega) hd
  obtain ⟨a, e, ⟨a1, a2⟩, a3⟩ := forRange_sum (f := tofFace g flux s.1 nt d) (s := { up := 0, down := max (-(src.getD d 0)) 0, tracer := s.2 }) hmono
    (fun a => a.tracer.length = g.nc * nt ∧ ∀ u tr, u ≠ d → entry nt a.tracer u tr = entry nt s.2 u tr) (view nt)
    (fun i => gain g flux s.1 nt s.2 d (g.cellFaces.getD i 0)) ⟨h2, fun _ _ _ => rfl⟩
    (fun i a hi1 hi2 ha => by
      obtain ⟨a', e', b1, b2, b3⟩ := tofFace_ok hv hfl hd h1 hi1 hi2 ha.1 ha.2
      exact ⟨a', e', ⟨b1, b2⟩, b3⟩)
  have hup : a.up = -∑ u ∈ Finset.range g.nc, g.flowRate flux u d * s.1.getD u 0 := by
    have := a3 none
    simp only [view, gain] at this
    rw [this, sum_con hv hd, zero_add]
  have hdown : a.down = g.throughput flux src d := by
    have := a3 (some none)
    simp only [view, gain] at this
    rw [this, sum_out hv hd, GridTopo.throughput, add_comm]
  have htr : ∀ tr, entry nt a.tracer d tr = entry nt s.2 d tr - ∑ u ∈ Finset.range g.nc, g.flowRate flux u d * entry nt s.2 u tr := by
    intro tr
    have := a3 (some (some (d, tr)))
    simp only [view, gain, if_true] at this
    rw [this, sum_con hv hd, sub_eq_add_neg]
  unfold solveSingleCell Reorder.cellLoop
  rw [rd_of_getElem? hsrc, bind_ok, rd_of_getElem? (Graph.ia_get hv.csr (by omega)), bind_ok, rd_of_getElem? (Graph.ia_get hv.csr (i := d + 1) hd), bind_ok, e, bind_ok,
    rd_of_getElem? hpv, bind_ok, fdiv, if_neg (by rw [hdown]; exact hpos), bind_ok, wr_ok (by omega), bind_ok]
  have hset : ∀ (v : Rat) (c : Nat), (s.1.set d v).getD c 0 = if c = d then v else s.1.getD c 0 := by
    intro v c
    by_cases h : c = d
    · subst h
      have : c < s.1.length := by omega
      simp [List.getD_eq_getElem?_getD, this]
    · simp [List.getD_eq_getElem?_getD, h, Ne.symm h]
  by_cases hq : src.getD d 0 ≤ 0
  · obtain ⟨t, et, tl, tv⟩ := tracerScale_ok (nt := nt) (d := a.down) hd (by rw [hdown]; exact hpos) a1
    rw [if_pos hq, et, bind_ok]
    refine ⟨_, rfl, ⟨by simp [h1], tl⟩, fun c => ?_⟩
    unfold cellValue newValue
    simp only [hset]
    by_cases h : c = d
    · subst h
      rw [if_pos rfl, if_pos rfl]
      refine Prod.ext ?_ (funext fun tr => ?_)
      · simp only [hup, hdown, sub_neg_eq_add]
      · simp only
        rw [tv, if_pos rfl, if_pos hq, htr, hdown]
    · rw [if_neg h, if_neg h]
      refine Prod.ext rfl (funext fun tr => ?_)
      simp only
      rw [tv, if_neg h, a2 c tr h]
  · rw [if_neg hq]
    refine ⟨_, rfl, ⟨by simp [h1], a1⟩, fun c => ?_⟩
    unfold cellValue newValue
    simp only [hset]
    by_cases h : c = d
    · subst h
      rw [if_pos rfl, if_pos rfl]
      refine Prod.ext ?_ (funext fun tr => ?_)
      · simp only [hup, hdown, sub_neg_eq_add]
      · simp only
        rw [if_neg hq, htr]
    · rw [if_neg h, if_neg h]
      exact Prod.ext rfl (funext fun tr => a2 c tr h)

/-- Only cells upstream matter. -/
theorem flowRate_zero (hfl : flux.length = g.nf) {u d : Nat} (h : ¬g.FlowsTo flux u d) : g.flowRate flux u d = 0 := by
  unfold GridTopo.flowRate
  refine Finset.sum_eq_zero fun f hf => ?_
  have hf := Finset.mem_range.1 hf
  have hq : flux[f]? = some (flux.getD f 0) := getElem?_getD (by omega)
  unfold GridTopo.faceFlow
  split
  · rename_i hs
    refine max_eq_right (not_lt.1 fun hpos => h ⟨f, _, hq, .inl ⟨hpos, hs⟩⟩)
  · split
    · rename_i hs
      refine max_eq_right (not_lt.1 fun hpos => h ⟨f, _, hq, .inr ⟨by linarith, hs⟩⟩)
    · rfl

theorem flowRate_nonneg (u d : Nat) : 0 ≤ g.flowRate flux u d := by
  unfold GridTopo.flowRate
  refine Finset.sum_nonneg fun f _ => ?_
  unfold GridTopo.faceFlow
  split
  · exact le_max_right _ _
  · split
    · exact le_max_right _ _
    · exact le_refl _

theorem newValue_dep (hfl : flux.length = g.nf) {pv src : List Rat} (d : Nat) (v : Rat × (Nat → Rat)) (x y : Nat → Rat × (Nat → Rat))
    (h : ∀ u, g.FlowsTo flux u d → x u = y u) : newValue g flux pv src d v x = newValue g flux pv src d v y := by
  have key : ∀ p : (Rat × (Nat → Rat)) → Rat, ∑ u ∈ Finset.range g.nc, g.flowRate flux u d * p (x u) = ∑ u ∈ Finset.range g.nc, g.flowRate flux u d * p (y u) := by
    intro p
    refine Finset.sum_congr rfl fun u _ => ?_
    by_cases hu : g.FlowsTo flux u d
    · rw [h u hu]
    · rw [flowRate_zero hfl hu, zero_mul, zero_mul]
  unfold newValue
  rw [key Prod.fst]
  refine Prod.ext rfl (funext fun tr => ?_)
  simp only
  rw [key (fun p => p.2 tr)]

end Opm.Tof
