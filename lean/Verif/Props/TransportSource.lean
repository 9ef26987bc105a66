import Verif.Proofs.TransportSource
import Verif.Proofs.GridValid
/-!
# Transport sources

Properties of `computeTransportSource`.
-/

namespace Opm.MiscUtil
open Opm Opm.IfsTpfa

/-- **Transport sources.**  The source of a cell is the sum of its explicit source, its boundary inflows and the contributions of all perforations in it; inflow
counts with the inflow fraction (explicit and boundary) or the first-phase fraction of the well (injectors), outflow counts in full, and injection through
producers is ignored.  The previous contents of the output vector do not matter. -/
theorem transport_source_eq {G : GridTopo} (hv : G.Valid) {src flux rates : List Rat} (junk : List Rat) (hs : G.nc ≤ src.length) (hf : G.nf ≤ flux.length)
    (frac : Rat) {W : Wells.W} (hW : Wells2 G.nc W) (hr : W.connpos.getD W.nw 0 ≤ rates.length) :
    ∃ r, computeTransportSource G src flux frac (some W) rates junk = .ok r ∧ r.length = G.nc ∧ ∀ c, c < G.nc → r.getD c 0 = scaled frac (src.getD c 0) +
      ∑ f ∈ Finset.range G.nf, scaled frac (boundaryInflow G (fun f => flux.getD f 0) c f) + overPerfs W c (fun w i => perfShare W w (rates.getD i 0)) := by
  obtain ⟨t, e, h1, h2⟩ := sourcesAndBoundary_ok hv hs hf (length_vresize junk G.nc) frac
  obtain ⟨r, e', h3, h4⟩ := loop_sum (n := W.nw) (s := t) (f := fun w ts => do
      let b ← rd W.connpos w
      let e ← rd W.connpos (w + 1)
      forRange b e (fun perf ts => do
        let cell ← rd W.cells perf
        let rate ← rd rates perf
        let v ← perfSource W w rate
        let x ← rdI ts cell
        wrI ts cell (x + v)) ts)
    (Ok := fun t : List Rat => t.length = G.nc) (V := fun t r => t.getD r 0)
    (g := fun w c => ∑ i ∈ Finset.Ico (W.connpos.getD w 0) (W.connpos.getD (w + 1) 0), if W.cells[i]? = some (c : Int) then perfShare W w (rates.getD i 0) else 0) h1 (by
      intro w t hw ht
      rw [rd_of_getElem? (hW.pos.get (c := w) (by omega)), bind_ok, rd_of_getElem? (hW.pos.get (c := w + 1) hw), bind_ok]
      exact forRange_sum (hW.pos.le hw) (Ok := fun t : List Rat => t.length = G.nc) (V := fun t r => t.getD r 0)
        (g := fun i c => if W.cells[i]? = some (c : Int) then perfShare W w (rates.getD i 0) else 0) ht (by
          intro i t hi hi' ht
          have hlt := hW.pos.lt_total hw hi'
          obtain ⟨c, ec, hc⟩ := hW.cell i hlt
          rw [rd_of_getElem? ec, bind_ok, rdD (by omega), bind_ok, perfSource_ok hW hw, bind_ok, rdI_natCast, rdD (by omega), bind_ok, wrI_natCast, wr_ok (by omega)]
          refine ⟨_, rfl, by simpa using ht, fun r => ?_⟩
          rw [getD_addAt (by omega)]
          congr 1
          rw [ec]
          simp [eq_comm]))
  refine ⟨r, ?_, h3, fun c hc => ?_⟩
  · unfold computeTransportSource
    rw [e, bind_ok]
    simp only
    rw [if_neg (by rw [hW.np]; simp)]
    exact e'
  · rw [h4, h2 c hc]
    rfl

/-- Without wells. -/
theorem transport_source_no_wells {G : GridTopo} (hv : G.Valid) {src flux : List Rat} (rates junk : List Rat) (hs : G.nc ≤ src.length) (hf : G.nf ≤ flux.length)
    (frac : Rat) :
    ∃ r, computeTransportSource G src flux frac none rates junk = .ok r ∧ r.length = G.nc ∧ ∀ c, c < G.nc → r.getD c 0 = scaled frac (src.getD c 0) +
      ∑ f ∈ Finset.range G.nf, scaled frac (boundaryInflow G (fun f => flux.getD f 0) c f) := by
  obtain ⟨t, e, h1, h2⟩ := sourcesAndBoundary_ok hv hs hf (length_vresize junk G.nc) frac
  refine ⟨t, ?_, h1, h2⟩
  unfold computeTransportSource
  rw [e, bind_ok]

/-- The outflow of a cell through interior faces: a flux counted from the first side to the second leaves the first and enters the second. -/
def interiorOutflow (G : GridTopo) (q : Nat → Rat) (c : Nat) : Rat :=
  ∑ f ∈ Finset.range G.nf, if G.faceCells[2 * f]? = some (-1) ∨ G.faceCells[2 * f + 1]? = some (-1) then 0 else
    ((if G.faceCells[2 * f]? = some (c : Int) then q f else 0) - (if G.faceCells[2 * f + 1]? = some (c : Int) then q f else 0))

/-- **Transport sources close the volume balance.**  If everything injected is the first phase (inflow fraction one, injectors of pure first phase, no injection
through producers) and the fluxes conserve volume with the given sources and well rates, then the transport source of each cell equals what leaves it through the
interior faces. -/
theorem transport_source_balances {G : GridTopo} (hv : G.Valid) {src flux rates : List Rat} (junk : List Rat) (hs : G.nc ≤ src.length) (hf : G.nf ≤ flux.length)
    {W : Wells.W} (hW : Wells2 G.nc W) (hr : W.connpos.getD W.nw 0 ≤ rates.length)
    (hpure : ∀ w i, w < W.nw → W.connpos.getD w 0 ≤ i → i < W.connpos.getD (w + 1) 0 → 0 < rates.getD i 0 → W.type[w]? = some .injector ∧ W.compFrac.getD (2 * w) 0 = 1)
    (hcons : ∀ c, c < G.nc → G.netOutflow (fun f => flux.getD f 0) c = src.getD c 0 + overPerfs W c (fun _ i => rates.getD i 0)) :
    ∃ r, computeTransportSource G src flux 1 (some W) rates junk = .ok r ∧ ∀ c, c < G.nc → r.getD c 0 = interiorOutflow G (fun f => flux.getD f 0) c := by
  obtain ⟨r, e, _, h⟩ := transport_source_eq hv junk hs hf 1 hW hr
  refine ⟨r, e, fun c hc => ?_⟩
  have hsc : ∀ x, scaled 1 x = x := by intro x; unfold scaled; split <;> simp
  have hp : overPerfs W c (fun w i => perfShare W w (rates.getD i 0)) = overPerfs W c (fun _ i => rates.getD i 0) := by
    refine Finset.sum_congr rfl fun w hw => Finset.sum_congr rfl fun i hi => ?_
    rw [Finset.mem_Ico] at hi
    have : perfShare W w (rates.getD i 0) = rates.getD i 0 := by
      unfold perfShare
      by_cases hq : 0 < rates.getD i 0
      · obtain ⟨h1, h2⟩ := hpure w i (Finset.mem_range.1 hw) hi.1 hi.2 hq
        rw [if_pos hq, if_pos h1, h2, mul_one]
      · rw [if_neg hq]
    simp only [this]
  rw [h c hc, hp, hsc, add_right_comm, ← hcons c hc]
  unfold GridTopo.netOutflow interiorOutflow
  rw [← Finset.sum_add_distrib]
  refine Finset.sum_congr rfl fun f hlt => ?_
  rw [Finset.mem_range] at hlt
  obtain ⟨a, b, hab⟩ := hv.sides hlt
  have hd := hv.distinct f a b hab
  rw [hsc]
  unfold boundaryInflow
  rw [hab.1, hab.2]
  simp only [Option.some.injEq]
  have hc0 : (c : Int) ≠ -1 := by omega
  by_cases ha : a = -1 <;> by_cases hb : b = -1
  · subst ha; subst hb
    simp [Ne.symm hc0]
  · subst ha
    simp only [Ne.symm hc0, false_and, if_false, true_and, true_or, if_true]
    split <;> ring
  · subst hb
    simp only [Ne.symm hc0, and_true, and_false, if_false, or_true, if_true]
    split <;> ring
  · simp only [ha, hb, and_false, false_and, if_false, or_false, add_zero]

namespace Demo
open Wells

/-- Two cells in a row. -/
def row : GridTopo := { nc := 2, nf := 3, faceCells := [-1, 0, 0, 1, 1, -1], cellFacepos := [0, 2, 4], cellFaces := [0, 1, 1, 2] }

theorem row_valid : row.Valid := GridTopo.ValidB.valid (by decide +kernel)

/-- An injector of pure first phase in the first cell, a producer in the second. -/
def pairWells : W :=
  { nw := 2, np := 2, type := [.injector, .producer], depthRef := [0, 0], compFrac := [1, 0, 0, 0], connpos := [0, 1, 2], cells := [0, 1], wi := [1, 1],
    ctrls := [], name := [none, none], wellCpty := 2, perfCpty := 2 }

theorem pairWells_ok : Wells2 2 pairWells where
  np := rfl
  pos := rowPos_of (by decide) rfl (by decide)
  cell := by
    intro i hi
    match i, hi with
    | 0, _ => exact ⟨0, rfl, by decide⟩
    | 1, _ => exact ⟨1, rfl, by decide⟩
  type := rfl
  frac := rfl
  one := by decide +kernel

/-- Five injected, one of it leaving at the left boundary, the rest produced; and two through the right boundary into the second cell. -/
example : computeTransportSource row [0, -2] [-1, 4, -2] (1/2) (some pairWells) [5, -4] [9, 9, 9] = .ok [4, -5] := by decide +kernel

/-- The conditions of `transport_source_balances` hold for the fluxes of the example. -/
example : (∀ w i, w < pairWells.nw → pairWells.connpos.getD w 0 ≤ i → i < pairWells.connpos.getD (w + 1) 0 → 0 < ([5, -4] : List Rat).getD i 0 →
      pairWells.type[w]? = some .injector ∧ pairWells.compFrac.getD (2 * w) 0 = 1) ∧
    ∀ c, c < row.nc → row.netOutflow (fun f => ([-1, 4, -2] : List Rat).getD f 0) c =
      ([0, -2] : List Rat).getD c 0 + overPerfs pairWells c (fun _ i => ([5, -4] : List Rat).getD i 0) := by
  constructor
  · intro w i hw h1 h2 h3
    match w, hw with
    | 0, _ => decide +kernel
    | 1, _ =>
      obtain rfl : i = 1 := by
        have h1 : 1 ≤ i := h1
        have h2 : i < 2 := h2
        omega
      exact absurd h3 (by decide +kernel)
  · decide +kernel

end Demo

end Opm.MiscUtil
