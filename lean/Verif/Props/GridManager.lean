import Verif.Spec.GridManager
import Verif.Props.CartGrid
/-!
# C128: grids from decks
-/

namespace Opm.GridManager
open Opm Opm.Cart

theorem partialSum_length (s : Rat) (l : List Rat) : (partialSum s l).length = l.length := by
  induction l generalizing s with
  | nil => rfl
  | cons d ds ih => simp [partialSum, ih]

theorem partialSum_get (s : Rat) (l : List Rat) {i : Nat} (hi : i < l.length) : (partialSum s l)[i]? = some (s + (l.take (i + 1)).sum) := by
  induction l generalizing s i with
  | nil => simp at hi
  | cons d ds ih =>
    cases i with
    | zero => simp [partialSum]
    | succ i =>
      simp only [partialSum, List.getElem?_cons_succ]
      rw [ih _ (by simpa using hi)]
      simp [add_assoc]

theorem coords_length (l : List Rat) : (coordsFromDeltas l).length = l.length + 1 := by simp [coordsFromDeltas, partialSum_length]

theorem coords_holds (l : List Rat) : Holds (coordsFromDeltas l) l.length (line l) := by
  intro i hi
  unfold coordsFromDeltas line
  cases i with
  | zero => simp
  | succ i =>
    rw [List.getElem?_cons_succ, partialSum_get _ _ (by omega), zero_add]

theorem line_zero (l : List Rat) : line l 0 = 0 := rfl

theorem line_all (l : List Rat) : line l l.length = l.sum := by simp [line]

variable {d : Deck} {dxv dyv dzv : List Rat}

theorem dimsOf_ok {l : List Int} (h : d.size = some l) : dimsOf d = .ok l := by
  unfold Deck.size at h
  unfold dimsOf
  cases h1 : d.dimens with
  | some a =>
    rw [h1] at h
    cases h
    rfl
  | none =>
    rw [h1] at h
    cases h2 : d.specgrid with
    | some a =>
      rw [h2] at h
      cases h
      rfl
    | none =>
      rw [h2] at h
      cases h

/-- What is left after the checks of the sizes. -/
theorem construct_tensor (junk : Junk) (h : Tensor d dxv dyv dzv) : construct junk d =
    (match d.depthz with
    | some depthz =>
      if depthz.length ≠ (dxv.length + 1) * (dyv.length + 1) then .error .thrown
      else do
        let G ← createLayered3d junk dxv.length dyv.length dzv.length (coordsFromDeltas dxv) (coordsFromDeltas dyv) (coordsFromDeltas dzv) depthz
        .ok (.layered G)
    | none =>
      match d.tops with
      | some tops => do
        let t ← rd tops 0
        if tops.count t ≠ tops.length then .error .thrown
        else do
          let G ← createLayered3d junk dxv.length dyv.length dzv.length (coordsFromDeltas dxv) (coordsFromDeltas dyv) (coordsFromDeltas dzv) (List.replicate ((dxv.length + 1) * (dyv.length + 1)) t)
          .ok (.layered G)
      | none => do
        let G ← createTensor3d junk dxv.length dyv.length dzv.length (coordsFromDeltas dxv) (coordsFromDeltas dyv) (coordsFromDeltas dzv)
        .ok (.boxes G)) := by
  obtain ⟨rest, hs⟩ := h.size
  unfold construct
  rw [if_neg h.format, h.x, h.y, h.z]
  dsimp only
  unfold initTensor
  have c1 : ∀ (l : List Rat) (k : Nat) (dims : List Int), dims[k]? = some (l.length : Int) → checkSize dims k l = .ok () := by
    intro l k dims hk
    unfold checkSize
    rw [rd_of_getElem? hk, bind_ok, if_neg (by simp)]
  rw [dimsOf_ok hs, bind_ok]
  dsimp only
  rw [c1 dxv 0 _ rfl, bind_ok, c1 dyv 1 _ rfl, bind_ok, c1 dzv 2 _ rfl, bind_ok]
  simp only [coords_length]
  rfl

theorem layered_ok (junk : Junk) {D : List Rat} {E : Nat → Nat → Rat} (px : 0 < dxv.length) (py : 0 < dyv.length) (pz : 0 < dzv.length) (hl : D.length = (dxv.length + 1) * (dyv.length + 1))
    (hE : ∀ i j, i ≤ dxv.length → j ≤ dyv.length → D.getD (node2 dxv.length i j) 0 = E i j) :
    ∃ G, createLayered3d junk dxv.length dyv.length dzv.length (coordsFromDeltas dxv) (coordsFromDeltas dyv) (coordsFromDeltas dzv) D = .ok G ∧ IsCart3d dxv.length dyv.length dzv.length G ∧ G.topo.Valid ∧
      NodesBelow dxv dyv dzv E G := by
  obtain ⟨s, es, ps⟩ := layered_nodes junk.rat dxv.length dyv.length dzv.length _ _ _ D _ _ _ (fun p => D.getD p 0) (coords_holds dxv) (coords_holds dyv) (coords_holds dzv) (fun p hp => by
    rw [List.getD_eq_getElem?_getD, List.getElem?_eq_getElem (by omega)]; rfl)
  unfold createLayered3d
  rw [topology3d px py pz, bind_ok]
  change ∃ G, (layeredNodes _ _ _ _ _ _ _ ⟨realloc junk.rat [] ((dxv.length + 1) * (dyv.length + 1) * (dzv.length + 1) * 3), 0⟩ >>= _) = _ ∧ _
  rw [es, bind_ok]
  refine ⟨_, rfl, isCart3d rfl rfl rfl rfl rfl rfl rfl rfl rfl rfl rfl, valid3d rfl rfl rfl rfl rfl, fun i j k hi hj hk => ?_⟩
  rw [← hE i j hi hj, add_comm (D.getD _ 0)]
  exact ps i j k hi hj hk

/-- **C128.**  A deck with widths of cells only: the grid is the one of the boxes between the lines at the sums of the widths, from zero on. -/
theorem boxes (junk : Junk) (h : Tensor d dxv dyv dzv) (h1 : d.depthz = none) (h2 : d.tops = none) :
    ∃ G, construct junk d = .ok (.boxes G) ∧ IsCart3d dxv.length dyv.length dzv.length G ∧ G.topo.Valid ∧ IsBoxes3d dxv.length dyv.length dzv.length (line dxv) (line dyv) (line dzv) G ∧
      G.cellVolumes.sum = dxv.sum * dyv.sum * dzv.sum := by
  obtain ⟨G, e, a, b, c, v⟩ := tensor3d_grid junk dxv.length dyv.length dzv.length _ _ _ _ _ _ h.px h.py h.pz (coords_holds dxv) (coords_holds dyv) (coords_holds dzv)
  refine ⟨G, ?_, a, b, c, ?_⟩
  · rw [construct_tensor junk h, h1, h2]
    dsimp only
    rw [e, bind_ok]
  · rw [v, line_all, line_all, line_all, line_zero, line_zero, line_zero, sub_zero, sub_zero, sub_zero]

/-- **C128.**  With `DEPTHZ`, one depth for each column of nodes: nodes lie below it by the sums of the widths; any other number of depths is reported by an exception. -/
theorem with_depthz (junk : Junk) (h : Tensor d dxv dyv dzv) {depthz : List Rat} (h1 : d.depthz = some depthz) :
    (depthz.length = (dxv.length + 1) * (dyv.length + 1) → ∃ G, construct junk d = .ok (.layered G) ∧ IsCart3d dxv.length dyv.length dzv.length G ∧ G.topo.Valid ∧
      NodesBelow dxv dyv dzv (fun i j => depthz.getD (i + (dxv.length + 1) * j) 0) G) ∧
    (depthz.length ≠ (dxv.length + 1) * (dyv.length + 1) → construct junk d = .error .thrown) := by
  rw [construct_tensor junk h, h1]
  dsimp only
  constructor
  · intro hl
    obtain ⟨G, e, a, b, c⟩ := layered_ok junk (D := depthz) (E := fun i j => depthz.getD (i + (dxv.length + 1) * j) 0) h.px h.py h.pz hl (fun i j _ _ => by
      rw [show node2 dxv.length i j = i + (dxv.length + 1) * j by unfold node2; ring])
    refine ⟨G, ?_, a, b, c⟩
    rw [if_neg (by simpa using hl), e, bind_ok]
  · intro hl
    rw [if_pos hl]

/-- **C128.**  With `TOPS` and no `DEPTHZ`: if all its values are the same, that is the depth of the top; otherwise there is an exception. -/
theorem with_tops (junk : Junk) (h : Tensor d dxv dyv dzv) {t : Rat} {ts : List Rat} (h1 : d.depthz = none) (h2 : d.tops = some (t :: ts)) :
    ((∀ s ∈ ts, s = t) → ∃ G, construct junk d = .ok (.layered G) ∧ IsCart3d dxv.length dyv.length dzv.length G ∧ G.topo.Valid ∧ NodesBelow dxv dyv dzv (fun _ _ => t) G) ∧
    ((∃ s ∈ ts, s ≠ t) → construct junk d = .error .thrown) := by
  have hc : (t :: ts).count t = (t :: ts).length ↔ ∀ s ∈ ts, s = t := by
    rw [List.count_eq_length]
    constructor
    · intro q s hs
      exact (q s (by simp [hs])).symm
    · intro q s hs
      rcases List.mem_cons.1 hs with rfl | hs
      · rfl
      · exact (q s hs).symm
  rw [construct_tensor junk h, h1, h2]
  dsimp only
  rw [show rd (t :: ts) 0 = .ok t from rfl, bind_ok]
  constructor
  · intro hs
    obtain ⟨G, e, a, b, c⟩ := layered_ok junk (D := List.replicate ((dxv.length + 1) * (dyv.length + 1)) t) (E := fun _ _ => t) h.px h.py h.pz (by simp) (fun i j hi hj => by
      rw [List.getD_eq_getElem?_getD, List.getElem?_replicate, if_pos]
      · rfl
      · unfold node2
        have := Nat.mul_le_mul_right (dxv.length + 1) hj
        nlinarith)
    refine ⟨G, ?_, a, b, c⟩
    rw [if_neg (by rw [ne_eq, not_not]; exact hc.2 hs), e, bind_ok]
  · rintro ⟨s, hs, hne⟩
    rw [if_pos (fun z => hne (hc.1 z s hs))]

/-- **C128.**  A logical size that differs from the numbers of widths is reported by an exception. -/
theorem wrong_size (junk : Junk) (hf : ¬(d.zcorn = true ∧ d.coord = true)) (hx : d.dxv = some dxv) (hy : d.dyv = some dyv) (hz : d.dzv = some dzv) {a b c : Int} {rest : List Int}
    (hs : d.size = some (a :: b :: c :: rest)) (hne : ¬(a = dxv.length ∧ b = dyv.length ∧ c = dzv.length)) : construct junk d = .error .thrown := by
  unfold construct
  rw [if_neg hf, hx, hy, hz]
  dsimp only
  unfold initTensor
  rw [dimsOf_ok hs, bind_ok]
  simp only [checkSize, rd, List.getElem?_cons_zero, List.getElem?_cons_succ, bind_ok]
  by_cases q1 : a = dxv.length
  · by_cases q2 : b = dyv.length
    · have q3 : c ≠ dzv.length := fun q3 => hne ⟨q1, q2, q3⟩
      rw [if_neg (by simpa using q1), bind_ok, if_neg (by simpa using q2), bind_ok, if_pos q3]
      rfl
    · rw [if_neg (by simpa using q1), bind_ok, if_pos q2]
      rfl
  · rw [if_pos q1]
    rfl

/-- **C128.**  A deck with neither format, or in tensor format without a logical size, is reported by an exception. -/
theorem incomplete (junk : Junk) (hf : ¬(d.zcorn = true ∧ d.coord = true)) (h : d.dxv = none ∨ d.dyv = none ∨ d.dzv = none ∨ d.size = none) : construct junk d = .error .thrown := by
  unfold construct
  rw [if_neg hf]
  cases hx : d.dxv with
  | none => rfl
  | some x =>
    cases hy : d.dyv with
    | none => rfl
    | some y =>
      cases hz : d.dzv with
      | none => rfl
      | some z =>
        rw [hx, hy, hz] at h
        have hs : d.size = none := by simpa using h
        dsimp only
        unfold initTensor
        have : dimsOf d = .error .thrown := by
          unfold Deck.size at hs
          unfold dimsOf
          cases h1 : d.dimens with
          | some a => rw [h1] at hs; cases hs
          | none =>
            cases h2 : d.specgrid with
            | some a => rw [h1, h2] at hs; cases hs
            | none => rfl
        rw [this]
        rfl

/-! ## Examples -/

private def junk0 : Junk := ⟨fun _ => 0, fun _ => 0, fun _ => 0⟩

example : Tensor { dimens := some [2, 1, 1], dxv := some [1, 2], dyv := some [3], dzv := some [4], tops := some [1000, 1000] } [1, 2] [3] [4] := ⟨by simp, rfl, rfl, rfl, ⟨[], rfl⟩, by decide, by decide, by decide⟩

example : ∃ G, construct junk0 { dimens := some [2, 1, 1], dxv := some [1, 2], dyv := some [3], dzv := some [4] } = .ok (.boxes G) ∧ G.cellVolumes = [12, 24] := ⟨_, rfl, by decide +kernel⟩

example : construct junk0 { dimens := some [2, 1, 1], dxv := some [1, 2], dyv := some [3], dzv := some [4], tops := some [1000, 1001] } = .error .thrown := by decide +kernel

/-- The documentation says that keywords of the other format are verified not to be present.  They are not looked at: a cell declared inactive by `ACTNUM` is in the grid. -/
theorem inactive_cell_kept : ∃ G, construct junk0 { dimens := some [2, 1, 1], actnum := some [1, 0], dxv := some [1, 2], dyv := some [3], dzv := some [4] } = .ok (.boxes G) ∧ G.nc = 2 := ⟨_, rfl, by decide +kernel⟩

/-- `TOPS` without values is read out of bounds. -/
theorem empty_tops : construct junk0 { dimens := some [1, 1, 1], dxv := some [1], dyv := some [3], dzv := some [4], tops := some [] } = .error .ub := by decide +kernel

end Opm.GridManager
