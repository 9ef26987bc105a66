import Verif.Proofs.ImplicitFlux
import Verif.Proofs.Sums
import Mathlib.Algebra.BigOperators.Ring.Finset
/-!
# Implicit transport: the assembled system
-/

namespace Opm.ImplicitTransport
open Opm Opm.Graph

/-- A row of the residual or an entry of the matrix, for rows that are cells. -/
def vv (n : Nat) (Y : Sys) : Nat ⊕ (Nat × Nat) → Rat
  | .inl c => if c < n then Y.res.getD c 0 else 0
  | .inr p => if p.1 < n then entry Y p.1 p.2 else 0

/-- What is kept while the system is assembled. -/
structure Keep (G : GridTopo) (Y0 Y : Sys) : Prop where
  pat : Pat G Y
  inc : Y.inc = Y0.inc
  sol : Y.sol = Y0.sol

/-- Adding to an entry. -/
def atE (i j : Nat) (v : Rat) : Nat ⊕ (Nat × Nat) → Rat
  | .inl _ => 0
  | .inr p => if p.1 = i ∧ p.2 = j then v else 0

/-- Adding to the residual. -/
def atR (i : Nat) (v : Rat) : Nat ⊕ (Nat × Nat) → Rat
  | .inl c => if c = i then v else 0
  | .inr _ => 0

theorem addEntry_keep {G : GridTopo} {Y0 Y : Sys} (h : Keep G Y0 Y) {i j : Nat} (hi : i < G.nc) (hj : j ∈ block Y.ja Y.ia i) (v : Rat) :
    ∃ Y', addEntry Y i j v = .ok Y' ∧ Keep G Y0 Y' ∧ Y'.ia = Y.ia ∧ Y'.ja = Y.ja ∧ ∀ r, vv G.nc Y' r = vv G.nc Y r + atE i j v r := by
  obtain ⟨sa, e, hp, hv⟩ := addEntry_ok h.pat hi hj v
  refine ⟨_, e, ⟨hp, h.inc, h.sol⟩, rfl, rfl, fun r => ?_⟩
  cases r with
  | inl c => simp [vv, atE]
  | inr p =>
    simp only [vv, atE]
    by_cases hlt : p.1 < G.nc
    · rw [if_pos hlt, if_pos hlt, hv _ _ hlt]
    · rw [if_neg hlt, if_neg hlt, if_neg (fun h => hlt (by omega)), add_zero]

theorem addResidual_keep {G : GridTopo} {Y0 Y : Sys} (h : Keep G Y0 Y) {i : Nat} (hi : i < G.nc) (v : Rat) :
    ∃ Y', addResidual Y i v = .ok Y' ∧ Keep G Y0 Y' ∧ Y'.ia = Y.ia ∧ Y'.ja = Y.ja ∧ ∀ r, vv G.nc Y' r = vv G.nc Y r + atR i v r := by
  obtain ⟨res, e, hp, hv⟩ := addResidual_ok h.pat hi v
  refine ⟨_, e, ⟨hp, h.inc, h.sol⟩, rfl, rfl, fun r => ?_⟩
  cases r with
  | inl c =>
    simp only [vv, atR]
    by_cases hlt : c < G.nc
    · rw [if_pos hlt, if_pos hlt, hv]
    · rw [if_neg hlt, if_neg hlt, if_neg (by omega), add_zero]
  | inr p =>
    simp only [vv, atR, add_zero]
    rfl

/-- What face `f` adds to row `c`. -/
def connVal (I : Input) (st : State) (x : Nat → Rat) (S : Store) (dt : Rat) (c f : Nat) (r : Nat ⊕ (Nat × Nat)) : Rat :=
  let c1 := I.G.faceCells.getD (2 * f) (-1)
  let c2 := I.G.faceCells.getD (2 * f + 1) (-1)
  if 0 ≤ c1 ∧ 0 ≤ c2 then
    let k := kon I st x S dt c f c1.toNat c2.toNat
    atE c c k.j1 r + atE c (if c1 = (c : Int) then c2 else c1).toNat k.j2 r + atR c k.F r
  else 0

theorem sides_getD {G : GridTopo} {f : Nat} {a b : Int} (hs : G.Sides f a b) : G.faceCells.getD (2 * f) (-1) = a ∧ G.faceCells.getD (2 * f + 1) (-1) = b := by
  obtain ⟨h1, h2⟩ := hs
  simp [List.getD_eq_getElem?_getD, h1, h2]

theorem connectionPart_ok {I : Input} (hI : InputOk I) {h : List Int} (hh : HalfOk I.G h) {st : State} (hst : StateOk I st) {x : Nat → Rat} {S : Store} (hS : Loaded I st x S) (dt : Rat)
    {c i : Nat} (hc : c < I.G.nc) (h1 : I.G.cellFacepos.getD c 0 ≤ i) (h2 : i < I.G.cellFacepos.getD (c + 1) 0) {Y0 Y : Sys} (hY : Keep I.G Y0 Y) :
    ∃ Y', connectionPart I h S st.faceflux dt c i Y = .ok Y' ∧ Keep I.G Y0 Y' ∧ ∀ r, vv I.G.nc Y' r = vv I.G.nc Y r + connVal I st x S dt c (I.G.cellFaces.getD i 0) r := by
  have hv := hI.valid
  obtain ⟨f, hf, hlt⟩ := hv.face_at hc h2
  obtain ⟨a, b, hs⟩ := hv.sides hlt
  obtain ⟨ra, rb⟩ := hv.side_range hs
  obtain ⟨e1, e2⟩ := sides_getD hs
  have ef : I.G.cellFaces.getD i 0 = f := by simp [List.getD_eq_getElem?_getD, hf]
  have hab : a = (c : Int) ∨ b = (c : Int) := (hv.agree c f a b hs).1 (GridTopo.hasFace_of hv hc h1 h2 hf)
  unfold connectionPart connVal
  rw [ef]
  dsimp only
  rw [e1, e2, rd_of_getElem? hf, bind_ok, rd_of_getElem? hs.1, bind_ok, rd_of_getElem? hs.2, bind_ok]
  by_cases hin : 0 ≤ a ∧ 0 ≤ b
  · obtain ⟨a', rfl⟩ := Int.eq_ofNat_of_zero_le hin.1
    obtain ⟨b', rfl⟩ := Int.eq_ofNat_of_zero_le hin.2
    rw [if_pos hin, fluxConnection_ok hI hh hst hS hs dt c, bind_ok]
    obtain ⟨Y1, g1, g2, g3, g4, g5⟩ := addEntry_keep hY hc (hY.pat.diag c hc) (kon I st x S dt c f a' b').j1
    obtain ⟨Y2, k1, k2, k3, k4, k5⟩ := addEntry_keep g2 hc (j := (if (a' : Int) = (c : Int) then (b' : Int) else (a' : Int)).toNat) (by
      obtain ⟨n1, n2⟩ := g2.pat.nbr f a' b' hs
      rcases hab with e | e
      · rw [if_pos e]
        obtain rfl : a' = c := by omega
        exact n1
      · have := hv.distinct f _ _ hs hin.1
        rw [if_neg (by omega)]
        obtain rfl : b' = c := by omega
        exact n2) (kon I st x S dt c f a' b').j2
    obtain ⟨Y3, l1, l2, l3, l4, l5⟩ := addResidual_keep k2 hc (kon I st x S dt c f a' b').F
    refine ⟨Y3, ?_, l2, fun r => ?_⟩
    · rw [g1, bind_ok, k1, bind_ok, l1]
    · rw [l5, k5, g5, if_pos hin]
      simp only [Int.toNat_natCast]
      ring
  · rw [if_neg hin]
    exact ⟨Y, rfl, hY, fun r => by rw [if_neg hin, add_zero]⟩

/-- What cell `c` adds. -/
def cellVal (I : Input) (st : State) (x : Nat → Rat) (S : Store) (dt : Rat) (c : Nat) (r : Nat ⊕ (Nat × Nat)) : Rat :=
  atE c c (I.porevol.getD c 0) r + ∑ i ∈ Finset.Ico (I.G.cellFacepos.getD c 0) (I.G.cellFacepos.getD (c + 1) 0), connVal I st x S dt c (I.G.cellFaces.getD i 0) r +
    atR c (I.porevol.getD c 0 * x c) r

theorem cellContrib_ok {I : Input} (hI : InputOk I) {h : List Int} (hh : HalfOk I.G h) {st : State} (hst : StateOk I st) {x : Nat → Rat} {S : Store} (hS : Loaded I st x S) (dt : Rat)
    {c : Nat} (hc : c < I.G.nc) {Y0 Y : Sys} (hY : Keep I.G Y0 Y) :
    ∃ Y', cellContrib I h S st.faceflux dt c Y = .ok Y' ∧ Keep I.G Y0 Y' ∧ ∀ r, vv I.G.nc Y' r = vv I.G.nc Y r + cellVal I st x S dt c r := by
  have hp := hI.valid.rowPos hI.first
  have hle := hp.mono' (c := c) (d := c + 1) (by omega) (by omega)
  have l1 := hI.porevol
  have l2 := hS.store.ds
  have l3 := hS.store.pv
  obtain ⟨Y1, g1, g2, g3, g4, g5⟩ := addEntry_keep hY hc (hY.pat.diag c hc) (I.porevol.getD c 0)
  obtain ⟨Y2, k1, k2, k3⟩ := forRange_sum (s := Y1) (f := connectionPart I h S st.faceflux dt c) hle (Keep I.G Y0) (vv I.G.nc) (fun i => connVal I st x S dt c (I.G.cellFaces.getD i 0)) g2
    (fun i t hi hi' ht => connectionPart_ok hI hh hst hS dt hc hi hi' ht)
  obtain ⟨Y3, m1, m2, m3, m4, m5⟩ := addResidual_keep k2 hc (I.porevol.getD c 0 * x c)
  refine ⟨Y3, ?_, m2, fun r => ?_⟩
  · unfold cellContrib
    rw [l3, rd_of_getElem? (getElem?_getD (by omega)), bind_ok, rd_of_getElem? (getElem?_getD (by omega)), bind_ok, g1, bind_ok, rd_of_getElem? (hp.get (by omega)), bind_ok,
      rd_of_getElem? (hp.get (by omega)), bind_ok, k1, bind_ok, (hS.cells c hc).ds, m1]
  · rw [m5, k3, g5]
    unfold cellVal
    ring

/-- The term that the source of cell `c` becomes. -/
def srcTerm (source pressure : List Rat) (c : Nat) : Option Sources.TTerm :=
  if 0 < source.getD c 0 then some { cell := c, pressure := pressure.getD c 0, flux := source.getD c 0, sat := [1, 0], vol := [0, 0] }
  else if source.getD c 0 < 0 then some { cell := c, pressure := pressure.getD c 0, flux := source.getD c 0, sat := [0, 0], vol := [0, 0] }
  else none

def srcTerms (source pressure : List Rat) (n : Nat) : List Sources.TTerm := (List.range n).filterMap (srcTerm source pressure)

theorem srcTerms_succ (source pressure : List Rat) (n : Nat) : srcTerms source pressure (n + 1) = srcTerms source pressure n ++ (srcTerm source pressure n).toList := by
  unfold srcTerms
  rw [List.range_succ, List.filterMap_append]
  cases h : srcTerm source pressure n <;> simp [h]

theorem addSource_ok (J : Sources.Junk) {source pressure : List Rat} {n : Nat} (h1 : n ≤ source.length) (h2 : n ≤ pressure.length) {T : Sources.TSrc} {ts : List Sources.TTerm}
    (hT : Sources.TRep 2 T ts) : ∃ src, loop n (addSource J source pressure) T.clear = .ok src ∧ Sources.TRep 2 src (srcTerms source pressure n) := by
  refine loop_inv (n := n) (f := addSource J source pressure) (s := T.clear) (fun k src => Sources.TRep 2 src (srcTerms source pressure k)) hT.clear ?_
  intro c T' hc hT'
  rw [srcTerms_succ]
  unfold addSource srcTerm
  rw [rd_of_getElem? (getElem?_getD (by omega)), bind_ok]
  by_cases hpos : source.getD c 0 > 0
  · rw [if_pos hpos, if_pos (show 0 < source.getD c 0 from hpos), rd_of_getElem? (getElem?_getD (by omega)), bind_ok]
    obtain ⟨T'', e, hr⟩ := hT'.append J { cell := c, pressure := pressure.getD c 0, flux := source.getD c 0, sat := [1, 0], vol := [0, 0] } (by simp)
    exact ⟨T'', by rw [show ((2 : Nat) : Int) = 2 from rfl] at e; rw [e, bind_ok, if_neg (by simp)], hr⟩
  · rw [if_neg hpos, if_neg (show ¬ 0 < source.getD c 0 from hpos)]
    by_cases hneg : source.getD c 0 < 0
    · rw [if_pos hneg, if_pos hneg, rd_of_getElem? (getElem?_getD (by omega)), bind_ok]
      obtain ⟨T'', e, hr⟩ := hT'.append J { cell := c, pressure := pressure.getD c 0, flux := source.getD c 0, sat := [0, 0], vol := [0, 0] } (by simp)
      exact ⟨T'', by rw [show ((2 : Nat) : Int) = 2 from rfl] at e; rw [e, bind_ok, if_neg (by simp)], hr⟩
    · rw [if_neg hneg, if_neg hneg]
      exact ⟨T', rfl, by simpa using hT'⟩

/-- Derivative and value of the contribution of the source of cell `c`. -/
def srcJ (I : Input) (st : State) (source : List Rat) (dt : Rat) (x : Nat → Rat) (S : Store) (c : Nat) : Rat :=
  if 0 < source.getD c 0 then 0
  else dt * -source.getD c 0 * (((1 - lamW I.P c (newSat I st x c) / (lamW I.P c (newSat I st x c) + lamO I.P c (newSat I st x c))) * S.dmob.getD (2 * c) 0 -
    lamW I.P c (newSat I st x c) / (lamW I.P c (newSat I st x c) + lamO I.P c (newSat I st x c)) * S.dmob.getD (2 * c + 1) 0) / (lamW I.P c (newSat I st x c) + lamO I.P c (newSat I st x c)))

/-- What the source of cell `c` adds. -/
def srcVal (I : Input) (st : State) (source : List Rat) (dt : Rat) (x : Nat → Rat) (S : Store) (c : Nat) (r : Nat ⊕ (Nat × Nat)) : Rat :=
  atE c c (srcJ I st source dt x S c) r + atR c (-(dt * waterSource I.P source c (newSat I st x c))) r

theorem sum_terms {α : Type} (ts : List α) (g : α → Rat) (d : α) : ∑ i ∈ Finset.range ts.length, g (ts.getD i d) = (ts.map g).sum := by
  induction ts using List.reverseRecOn with
  | nil => simp
  | append_singleton ts t ih =>
    rw [List.length_append, List.length_singleton, Finset.sum_range_succ, List.map_append, List.sum_append, ← ih]
    congr 1
    · refine Finset.sum_congr rfl fun i hi => ?_
      rw [Finset.mem_range] at hi
      simp only [List.getD_eq_getElem?_getD]
      rw [List.getElem?_append_left hi]
    · simp [List.getD_eq_getElem?_getD]

theorem srcTerms_cell {source pressure : List Rat} {n : Nat} {t : Sources.TTerm} (h : t ∈ srcTerms source pressure n) : ∃ c, c < n ∧ srcTerm source pressure c = some t ∧ t.cell = (c : Int) := by
  obtain ⟨c, hc, e⟩ := List.mem_filterMap.1 h
  refine ⟨c, List.mem_range.1 hc, e, ?_⟩
  unfold srcTerm at e
  split at e
  · cases e; rfl
  · split at e
    · cases e; rfl
    · cases e

theorem sources_ok {I : Input} (hI : InputOk I) {st : State} {x : Nat → Rat} {S : Store} (hS : Loaded I st x S) (dt : Rat) {source : List Rat}
    {src : Sources.TSrc} (hT : Sources.TRep 2 src (srcTerms source st.pressure I.G.nc)) {Y0 Y : Sys} (hY : Keep I.G Y0 Y) :
    ∃ Y', loop src.nsrc (sourceContrib S src dt) Y = .ok Y' ∧ Keep I.G Y0 Y' ∧
      ∀ r, vv I.G.nc Y' r = vv I.G.nc Y r + ∑ c ∈ Finset.range I.G.nc, srcVal I st source dt x S c r := by
  obtain ⟨Y', e, hk, hval⟩ := loop_sum (n := src.nsrc) (f := sourceContrib S src dt) (s := Y) (Keep I.G Y0) (vv I.G.nc)
    (fun i r => srcVal I st source dt x S ((srcTerms source st.pressure I.G.nc).getD i ⟨0, 0, 0, [], []⟩).cell.toNat r) hY
    (by
      intro i t hi ht
      rw [hT.n] at hi
      have hti := List.getElem?_eq_getElem hi
      obtain ⟨c, hc, e1, e2⟩ := srcTerms_cell (List.mem_of_getElem? hti)
      have hget : (srcTerms source st.pressure I.G.nc).getD i ⟨0, 0, 0, [], []⟩ = (srcTerms source st.pressure I.G.nc)[i] := by simp [List.getD_eq_getElem?_getD, hi]
      rw [hget, e2, Int.toNat_natCast]
      have hm : ∀ {β : Type} (f : Sources.TTerm → β), ((srcTerms source st.pressure I.G.nc).map f)[i]? = some (f (srcTerms source st.pressure I.G.nc)[i]) := by
        intro β f; rw [List.getElem?_map, hti]; rfl
      have hq : src.flux[i]? = some (source.getD c 0) := by
        have := rd_elem hT.flux (hm _)
        have hfl : (srcTerms source st.pressure I.G.nc)[i].flux = source.getD c 0 := by
          unfold srcTerm at e1
          split at e1
          · rw [← Option.some.inj e1]
          · split at e1
            · rw [← Option.some.inj e1]
            · cases e1
        rw [hfl] at this
        exact rd_eq_ok.1 this
      have hcell : src.cell[i]? = some (c : Int) := by
        have := rd_elem hT.cell (hm _)
        rw [e2] at this
        exact rd_eq_ok.1 this
      have hl := hS.store.mob
      have hl' := hS.store.dmob
      obtain ⟨a1, a2, a3⟩ := hI.mobility c _ hc (newSat_admissible hI (st := st) (x := x) hc)
      have hterm : sourceTerms S src i dt = .ok (srcJ I st source dt x S c, -(dt * waterSource I.P source c (newSat I st x c))) := by
        unfold sourceTerms srcJ waterSource
        rw [rd_of_getElem? hq, bind_ok]
        by_cases hpos : 0 < source.getD c 0
        · have hsat : src.saturation[2 * i]? = some 1 := by
            have hts : (srcTerms source st.pressure I.G.nc)[i].sat = [1, 0] := by
              unfold srcTerm at e1
              rw [if_pos hpos] at e1
              rw [← Option.some.inj e1]
            have := slice_row (by intro r hr; obtain ⟨x, hx, rfl⟩ := List.mem_map.1 hr; exact (hT.rows x hx).1) hT.sat (hm _)
            rw [hts] at this
            unfold slice at this
            split at this
            · have e3 := Except.ok.inj this
              have e4 : ((src.saturation.take ((i + 1) * 2)).drop (i * 2))[0]? = some 1 := by rw [e3]; rfl
              rw [List.getElem?_drop, List.getElem?_take, if_pos (by omega)] at e4
              rw [show 2 * i = i * 2 + 0 by omega]
              exact e4
            · cases this
          rw [if_pos (by linarith), rd_of_getElem? hsat, bind_ok, if_pos hpos, if_pos hpos]
          congr 2
          ring
        · rw [if_neg (by linarith), rd_of_getElem? hcell, bind_ok, show (2 * (c : Int)) = ((2 * c : Nat) : Int) by push_cast; rfl, rdI_natCast,
            rd_of_getElem? (getElem?_getD (by omega)), bind_ok, show (((2 * c : Nat) : Int) + 1) = ((2 * c + 1 : Nat) : Int) by push_cast; rfl, rdI_natCast,
            rd_of_getElem? (getElem?_getD (by omega)), bind_ok, rdI_natCast, rd_of_getElem? (getElem?_getD (by omega)), bind_ok, rdI_natCast, rd_of_getElem? (getElem?_getD (by omega)), bind_ok,
            (hS.cells c hc).mobW, (hS.cells c hc).mobO, check_ok (decide_eq_true (not_or.2 ⟨not_lt.2 a1, not_lt.2 a2⟩)), bind_ok, check_ok (decide_eq_true a3), bind_ok, if_neg hpos, if_neg hpos]
          congr 2
          ring
      obtain ⟨Y1, g1, g2, g3, g4, g5⟩ := addEntry_keep ht hc (ht.pat.diag c hc) (srcJ I st source dt x S c)
      obtain ⟨Y2, k1, k2, k3, k4, k5⟩ := addResidual_keep g2 hc (-(dt * waterSource I.P source c (newSat I st x c)))
      refine ⟨Y2, ?_, k2, fun r => ?_⟩
      · unfold sourceContrib
        rw [hterm, bind_ok, rdI_natCast, rd_of_getElem? hcell, bind_ok, if_neg (by omega), Int.toNat_natCast, g1, bind_ok, k1]
      · rw [k5, g5]
        unfold srcVal
        ring)
  refine ⟨Y', e, hk, fun r => ?_⟩
  rw [hval, hT.n, sum_terms (srcTerms source st.pressure I.G.nc) (fun t => srcVal I st source dt x S t.cell.toNat r) ⟨0, 0, 0, [], []⟩]
  congr 1
  generalize I.G.nc = n
  induction n with
  | zero => simp [srcTerms]
  | succ n ih =>
    rw [srcTerms_succ, List.map_append, List.sum_append, ih, Finset.sum_range_succ]
    congr 1
    unfold srcTerm
    split
    · simp
    · split
      · simp
      · rename_i h1 h2
        have h0 : source.getD n 0 = 0 := le_antisymm (not_lt.1 h1) (not_lt.1 h2)
        have : srcVal I st source dt x S n r = 0 := by
          unfold srcVal srcJ waterSource
          rw [h0]
          cases r <;> simp [atE, atR]
        simp [this]

/-- Numbers the assembled system holds. -/
def total (I : Input) (st : State) (source : List Rat) (dt : Rat) (x : Nat → Rat) (S : Store) (r : Nat ⊕ (Nat × Nat)) : Rat :=
  ∑ c ∈ Finset.range I.G.nc, cellVal I st x S dt c r + ∑ c ∈ Finset.range I.G.nc, srcVal I st source dt x S c r

theorem assemble_total {I : Input} (hI : InputOk I) {h : List Int} (hh : HalfOk I.G h) {st : State} (hst : StateOk I st) {x : Nat → Rat} {S : Store} (hS : Loaded I st x S) (dt : Rat)
    {source : List Rat} {src : Sources.TSrc} (hT : Sources.TRep 2 src (srcTerms source st.pressure I.G.nc)) {Y : Sys} (hY : Pat I.G Y) :
    ∃ Y', assemble I h S st.faceflux src dt Y = .ok Y' ∧ Keep I.G Y Y' ∧ ∀ r, vv I.G.nc Y' r = total I st source dt x S r := by
  have h0 : Keep I.G Y { Y with sa := Y.sa.map (fun _ => (0 : Rat)), res := Y.res.map (fun _ => (0 : Rat)) } :=
    ⟨⟨hY.wf, hY.sorted, hY.diag, hY.nbr, by simpa using hY.sa, by simpa using hY.res, hY.inc, hY.sol⟩, rfl, rfl⟩
  have hz : ∀ (l : List Rat) (k : Nat), (l.map (fun _ => (0 : Rat))).getD k 0 = 0 := by
    intro l k
    rw [List.getD_eq_getElem?_getD, List.getElem?_map]
    cases l[k]? <;> rfl
  obtain ⟨Y1, e1, k1, v1⟩ := loop_sum (n := I.G.nc) (f := cellContrib I h S st.faceflux dt) (Keep I.G Y) (vv I.G.nc) (cellVal I st x S dt) h0
    (fun c t hc ht => cellContrib_ok hI hh hst hS dt hc ht)
  obtain ⟨Y2, e2, k2, v2⟩ := sources_ok hI hS dt hT k1
  refine ⟨Y2, ?_, k2, fun r => ?_⟩
  · unfold assemble
    dsimp only
    rw [e1, bind_ok, e2]
  · rw [v2, v1]
    unfold total
    have : vv I.G.nc { Y with sa := Y.sa.map (fun _ => (0 : Rat)), res := Y.res.map (fun _ => (0 : Rat)) } r = 0 := by
      cases r with
      | inl c => simp only [vv, hz, ite_self]
      | inr p => simp only [vv, entry, hz, ite_self, Finset.sum_const_zero]
    rw [this, zero_add]

/-- The flux of water through face `f`. -/
def faceFlow (I : Input) (st : State) (x : Nat → Rat) (S : Store) (f : Nat) : Rat :=
  let c1 := I.G.faceCells.getD (2 * f) (-1)
  let c2 := I.G.faceCells.getD (2 * f + 1) (-1)
  if 0 ≤ c1 ∧ 0 ≤ c2 then faceQ I st x S f c1.toNat c2.toNat else 0

theorem faceFlow_water {I : Input} (hI : InputOk I) {st : State} (hst : StateOk I st) {x : Nat → Rat} {S : Store} (hS : Loaded I st x S) :
    WaterFlux I st.faceflux (newSat I st x) (faceFlow I st x S) := by
  constructor
  · intro f a b hs
    obtain ⟨g1, g2⟩ := hS.store.trans f (hs.lt hI.valid)
    refine ⟨S.trans.getD f 0, g1, g2, ?_⟩
    obtain ⟨e1, e2⟩ := sides_getD hs
    unfold faceFlow
    dsimp only
    rw [e1, e2, if_pos (by omega)]
    exact (faceQ_upwind hI hst hS hs).2
  · intro f hf hni
    obtain ⟨a, b, hs⟩ := hI.valid.sides hf
    obtain ⟨e1, e2⟩ := sides_getD hs
    unfold faceFlow
    dsimp only
    rw [e1, e2, if_neg]
    rintro ⟨h1, h2⟩
    obtain ⟨a', rfl⟩ := Int.eq_ofNat_of_zero_le h1
    obtain ⟨b', rfl⟩ := Int.eq_ofNat_of_zero_le h2
    exact hni ⟨a', b', hs⟩

theorem connVal_other {I : Input} {st : State} {x : Nat → Rat} {S : Store} {dt : Rat} {c f c' : Nat} (h : c' ≠ c) : connVal I st x S dt c f (.inl c') = 0 := by
  unfold connVal
  simp [atE, atR, h]

theorem total_res {I : Input} (hI : InputOk I) {st : State} (source : List Rat) (dt : Rat) (x : Nat → Rat) (S : Store) {c : Nat} (hc : c < I.G.nc) :
    total I st source dt x S (.inl c) =
      I.porevol.getD c 0 * x c + dt * I.G.netOutflow (faceFlow I st x S) c - dt * waterSource I.P source c (newSat I st x c) := by
  unfold total
  rw [Finset.sum_eq_single c, Finset.sum_eq_single c]
  · have hrow : ∑ i ∈ Finset.Ico (I.G.cellFacepos.getD c 0) (I.G.cellFacepos.getD (c + 1) 0), connVal I st x S dt c (I.G.cellFaces.getD i 0) (.inl c) =
        dt * I.G.netOutflow (faceFlow I st x S) c := by
      rw [GridTopo.sum_row hI.valid hc (fun f => connVal I st x S dt c f (.inl c)), Finset.sum_filter]
      unfold GridTopo.netOutflow
      rw [Finset.mul_sum]
      refine Finset.sum_congr rfl fun f hf => ?_
      rw [Finset.mem_range] at hf
      obtain ⟨a, b, hs⟩ := hI.valid.sides hf
      obtain ⟨e1, e2⟩ := sides_getD hs
      have hd := hI.valid.distinct f a b hs
      rw [hs.1, hs.2]
      simp only [Option.some.injEq]
      unfold connVal faceFlow
      dsimp only
      rw [e1, e2]
      by_cases hin : 0 ≤ a ∧ 0 ≤ b
      · have hne := hd hin.1
        rw [if_pos hin, if_pos hin, kon_F]
        by_cases h1 : a = (c : Int)
        · have h2 : b ≠ (c : Int) := by omega
          subst h1
          simp [atE, atR, h2]
        · by_cases h2 : b = (c : Int)
          · have h3 : a.toNat ≠ c := by omega
            simp [atE, atR, h1, h2, h3]
          · simp [h1, h2]
      · rw [if_neg hin, if_neg hin]
        simp
    unfold cellVal srcVal
    rw [hrow]
    simp only [atE, atR, if_true]
    ring
  · intro c' _ hne
    unfold srcVal
    simp [atE, atR, Ne.symm hne]
  · intro h; exact absurd (Finset.mem_range.2 hc) h
  · intro c' _ hne
    unfold cellVal
    rw [Finset.sum_eq_zero (fun i _ => connVal_other (Ne.symm hne))]
    simp [atE, atR, Ne.symm hne]
  · intro h; exact absurd (Finset.mem_range.2 hc) h

/-- The assembled residual is the imbalance of water. -/
theorem assemble_ok {I : Input} (hI : InputOk I) {h : List Int} (hh : HalfOk I.G h) {st : State} (hst : StateOk I st) {x : Nat → Rat} {S : Store} (hS : Loaded I st x S) (dt : Rat)
    {source : List Rat} {src : Sources.TSrc} (hT : Sources.TRep 2 src (srcTerms source st.pressure I.G.nc)) {Y : Sys} (hY : Pat I.G Y) :
    ∃ Y', assemble I h S st.faceflux src dt Y = .ok Y' ∧ Pat I.G Y' ∧ Y'.inc = Y.inc ∧ Y'.sol = Y.sol ∧ Imbalance I st source dt x (fun c => Y'.res.getD c 0) := by
  obtain ⟨Y', e, hk, hv⟩ := assemble_total hI hh hst hS dt hT hY
  refine ⟨Y', e, hk.pat, hk.inc, hk.sol, faceFlow I st x S, faceFlow_water hI hst hS, fun c hc => ?_⟩
  have := hv (.inl c)
  rw [total_res hI source dt x S hc] at this
  simpa only [vv, if_pos hc] using this

end Opm.ImplicitTransport
