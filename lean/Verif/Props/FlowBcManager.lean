import Verif.Model.FlowBcManager
import Verif.Props.FlowBc
import Verif.Spec.Geometry
import Mathlib.Tactic.Ring
import Mathlib.Tactic.FieldSimp
/-!
# Conditions on the sides of a grid
-/

namespace Opm.FlowBcManager
open Opm FlowBc
open Opm.Geometry (RowOf)

/-! ### Specification -/

/-- The number of the position `xs` in a box with dimensions `ds`, the first running fastest. -/
def lex : List Nat → List Nat → Nat
  | d :: ds, x :: xs => x + d * lex ds xs
  | _, _ => 0

/-- Is the face at the boundary? -/
def SideGrid.outer (g : SideGrid) (f : Nat) : Bool := g.faceCells.getD (2 * f) 0 = -1 ∨ g.faceCells.getD (2 * f + 1) 0 = -1

/-- A grid whose arrays fit: cell `c` is at position `pos c` and has the faces `F c` with tags `T c`. -/
structure SideGrid.Fits (g : SideGrid) (tag : List Nat) (pos F T : Nat → List Nat) : Prop where
  nd : g.ndims ≤ 3
  tags : g.facetag = some tag
  dims : g.cartdims.length = 3
  posLen : ∀ c, c < g.nc → (pos c).length = g.ndims
  posLt : ∀ c, c < g.nc → ∀ d x n : Nat, (pos c)[d]? = some x → g.cartdims[d]? = some n → x < n
  index : ∀ c, c < g.nc → g.global c = .ok (lex (g.cartdims.take g.ndims) (pos c))
  faces : ∀ c, c < g.nc → RowOf g.facepos g.cellFaces c (F c)
  facetags : ∀ c, c < g.nc → RowOf g.facepos tag c (T c)
  inside : ∀ c, c < g.nc → ∀ f ∈ F c, 2 * f + 1 < g.faceCells.length

/-- The position at which a cell is on the side: the first, or the last of `n`. -/
def extreme (side n : Nat) : Nat := if side % 2 = 0 then 0 else n - 1

/-- The faces of cell `c` with the tag of the side. -/
def tagged (F T : Nat → List Nat) (side c : Nat) : List Nat := (((F c).zip (T c)).filter (fun ft => ft.2 = side)).map Prod.fst

/-- The faces with the tag of the side in the cells on the side. -/
def SideGrid.sideFaces (g : SideGrid) (pos F T : Nat → List Nat) (side : Nat) : List Nat :=
  ((List.range g.nc).filter (fun c => (pos c)[side / 2]? = some (extreme side (g.cartdims.getD (side / 2) 0)))).flatMap (tagged F T side)

/-! ### Finding the faces -/

theorem cartCoord_lex : ∀ (ds xs : List Nat), xs.length = ds.length → (∀ d x n : Nat, xs[d]? = some x → ds[d]? = some n → x < n) → cartCoord ds (lex ds xs) = .ok xs
  | [], [], _, _ => rfl
  | [], _ :: _, h, _ => by simp at h
  | _ :: _, [], h, _ => by simp at h
  | d :: ds, x :: xs, h, hlt => by
    have hx : x < d := hlt 0 x d rfl rfl
    have ih := cartCoord_lex ds xs (by simpa using h) (fun i y n e1 e2 => hlt (i + 1) y n (by simpa using e1) (by simpa using e2))
    unfold cartCoord lex
    rw [if_neg (by omega), Nat.add_mul_div_left _ _ (by omega), Nat.div_eq_of_lt hx, Nat.zero_add, ih, bind_ok, Nat.add_mul_mod_self_left, Nat.mod_eq_of_lt hx]

theorem halfFace_eq {g : SideGrid} {tag : List Nat} {side hf t f : Nat} (h1 : tag[hf]? = some t) (h2 : g.cellFaces[hf]? = some f) (h3 : 2 * f + 1 < g.faceCells.length) (s : List Nat) :
    halfFace g tag side hf s = if t = side then if g.outer f then .ok (s ++ [f]) else .error .thrown else .ok s := by
  unfold halfFace SideGrid.outer
  rw [rd_of_getElem? h1, bind_ok]
  split
  · rw [rd_of_getElem? h2, bind_ok, rd_ok (by omega), bind_ok, rd_ok (by omega), bind_ok, List.getD_eq_getElem?_getD, List.getD_eq_getElem?_getD, List.getElem?_eq_getElem (by omega), List.getElem?_eq_getElem (by omega)]
    simp only [Option.getD_some]
    by_cases e : g.faceCells[2 * f] = -1 <;> by_cases e' : g.faceCells[2 * f + 1] = -1 <;> simp [e, e']
  · rfl

theorem slice_get {α : Type} {l r : List α} {p q : Nat} (h : slice l p q = .ok r) : r.length = q - p ∧ p ≤ q ∧ ∀ (k : Nat) x, r[k]? = some x → l[p + k]? = some x := by
  unfold slice at h
  split at h
  · next h' =>
    have e := Except.ok.inj h
    subst e
    refine ⟨by simp; omega, h'.1, fun k x hk => ?_⟩
    have hlt := (List.getElem?_eq_some_iff.1 hk).1
    simp only [List.length_drop, List.length_take] at hlt
    rw [List.getElem?_drop, List.getElem?_take_of_lt (by omega)] at hk
    exact hk
  · cases h

theorem row_eq {g : SideGrid} {tag : List Nat} {pos F T : Nat → List Nat} (h : g.Fits tag pos F T) {c : Nat} (hc : c < g.nc) (side : Nat) (s : List Nat) :
    (do let a ← rd g.facepos c
        let b ← rd g.facepos (c + 1)
        forRange a b (halfFace g tag side) s) = if (tagged F T side c).all g.outer then .ok (s ++ tagged F T side c) else .error .thrown := by
  obtain ⟨a, b, p1, p2, p3⟩ := h.faces c hc
  obtain ⟨a', b', q1, q2, q3⟩ := h.facetags c hc
  obtain rfl : a = a' := by rw [p1] at q1; exact Option.some.inj q1
  obtain rfl : b = b' := by rw [p2] at q2; exact Option.some.inj q2
  obtain ⟨l1, le, g1⟩ := slice_get p3
  obtain ⟨l2, _, g2⟩ := slice_get q3
  rw [rd_of_getElem? p1, bind_ok, rd_of_getElem? p2, bind_ok]
  unfold forRange tagged
  have key : ∀ n, n ≤ b - a → loop n (fun k s => halfFace g tag side (a + k) s) s = if (((((F c).zip (T c)).take n).filter (fun ft => ft.2 = side)).map Prod.fst).all g.outer then
      .ok (s ++ ((((F c).zip (T c)).take n).filter (fun ft => ft.2 = side)).map Prod.fst) else .error .thrown := by
    intro n hn
    induction n with
    | zero => simp [loop_zero]
    | succ n ih =>
      rw [loop_succ, ih (by omega)]
      have hF : n < (F c).length := by omega
      have hT : n < (T c).length := by omega
      have hz : ((F c).zip (T c))[n]? = some ((F c)[n], (T c)[n]) := by rw [List.getElem?_eq_getElem (by simp; omega)]; simp
      have ef := g1 n _ (List.getElem?_eq_getElem hF)
      have et := g2 n _ (List.getElem?_eq_getElem hT)
      rw [List.take_add_one, hz, Option.toList_some, List.filter_append, List.map_append, List.all_append]
      split
      · next ha =>
        rw [bind_ok, halfFace_eq et ef (h.inside c hc _ (List.getElem_mem hF)), ha, Bool.true_and]
        by_cases e : (T c)[n] = side
        · rw [if_pos e, List.filter_cons_of_pos (by simpa using e)]
          simp
        · rw [if_neg e, List.filter_cons_of_neg (by simpa using e)]
          simp
      · next ha =>
        rw [bind_error, if_neg (by simp only [Bool.and_eq_true, not_and]; intro hh; exact absurd hh ha)]
  have hk := key (b - a) (le_refl _)
  rw [List.take_of_length_le (by simp; omega)] at hk
  exact hk

/-- The faces found are those of the cells on the side that have the tag of the side, if all of them are at the boundary of the grid; otherwise the search throws. -/
theorem find_side_faces {g : SideGrid} {tag : List Nat} {pos F T : Nat → List Nat} (h : g.Fits tag pos F T) {side : Nat} (hs : side < 2 * g.ndims) :
    findSideFaces g side = if (g.sideFaces pos F T side).all g.outer then .ok (g.sideFaces pos F T side) else .error .thrown := by
  have hnd := h.nd
  have hlen := h.dims
  have hd : side / 2 < g.ndims := by omega
  unfold findSideFaces
  rw [h.tags]
  dsimp only
  rw [check_ok (by simpa using hnd), bind_ok, check_ok (by simpa using hs), bind_ok]
  have e1 : g.cartdims[side / 2]? = some (g.cartdims.getD (side / 2) 0) := by
    rw [List.getD_eq_getElem?_getD, List.getElem?_eq_getElem (by omega)]; rfl
  rw [rd_of_getElem? e1, bind_ok]
  generalize hn : g.cartdims.getD (side / 2) 0 = n at e1
  have key : ∀ m, m ≤ g.nc → loop m (sideCell g tag side n) [] = if (((List.range m).filter (fun c => (pos c)[side / 2]? = some (extreme side n))).flatMap (tagged F T side)).all g.outer then
      .ok (((List.range m).filter (fun c => (pos c)[side / 2]? = some (extreme side n))).flatMap (tagged F T side)) else .error .thrown := by
    intro m hm
    induction m with
    | zero => rfl
    | succ m ih =>
      rw [loop_succ, ih (by omega), List.range_succ, List.filter_append, List.flatMap_append, List.all_append]
      split
      · next ha =>
        rw [bind_ok]
        unfold sideCell
        have hp := h.posLen m (by omega)
        rw [h.index m (by omega), bind_ok, cartCoord_lex _ _ (by rw [hp, List.length_take]; omega) (fun d x k e e' => by
          rw [List.getElem?_take] at e'
          split at e'
          · exact h.posLt m (by omega) d x k e e'
          · cases e'), bind_ok, rd_ok (by omega), bind_ok]
        have ec : correct side n = extreme side n := by unfold correct extreme; rcases Nat.mod_two_eq_zero_or_one side with k | k <;> simp [k]
        rw [ec, List.filter_singleton]
        have eg : (pos m)[side / 2]? = some (pos m)[side / 2] := List.getElem?_eq_getElem (by omega)
        rw [eg, ha, Bool.true_and]
        by_cases e : (pos m)[side / 2] = extreme side n
        · rw [if_pos e, row_eq h (by omega)]
          simp [e]
        · rw [if_neg e]
          simp [e]
      · next ha =>
        rw [bind_error, if_neg (by simp only [Bool.and_eq_true, not_and]; intro hh; exact absurd hh ha)]
  unfold SideGrid.sideFaces
  rw [hn]
  exact key g.nc (le_refl _)

/-- Without tags, or with a side that the grid does not have, nothing is found. -/
theorem find_side_rejects (g : SideGrid) (side : Nat) : (g.facetag = none → findSideFaces g side = .error .thrown) ∧ (g.facetag ≠ none → 2 * g.ndims ≤ side → findSideFaces g side = .error .assertFail) := by
  constructor
  · intro h
    unfold findSideFaces
    rw [h]
  · intro h hs
    unfold findSideFaces
    cases e : g.facetag with
    | none => exact absurd e h
    | some t =>
      dsimp only
      unfold check
      by_cases k : g.ndims ≤ 3 <;> simp [k, show ¬ side < 2 * g.ndims by omega]

/-! ### The conditions -/

/-- Pressure on a side is one condition with the faces of the side. -/
theorem pressure_side {J : Junk} {g : SideGrid} {side : Nat} {faces : List Nat} (hf : findSideFaces g side = .ok faces) (hne : faces ≠ []) (p : Rat) {b : Bcs} {cs : List Cond} (hb : Rep b cs) :
    ∃ b', pressureSide J g side p b = .ok b' ∧ Rep b' (cs ++ [⟨.pressure, p, faces.map (fun f : Nat => (f : Int))⟩]) := by
  unfold pressureSide
  rw [hf, bind_ok, rd_ok (List.length_pos_iff.2 hne), bind_ok]
  exact append_rep J hb _ _ _

/-- If there are no cells on the side (all are inactive), the call is undefined. -/
theorem pressure_side_without_cells {J : Junk} {g : SideGrid} {side : Nat} (hf : findSideFaces g side = .ok []) (p : Rat) (b : Bcs) : pressureSide J g side p b = .error .ub := by
  unfold pressureSide
  rw [hf, bind_ok, rd_ub (by simp), bind_error]

theorem totalArea_eq {g : SideGrid} {faces : List Nat} (h : ∀ f ∈ faces, f < g.faceAreas.length) : totalArea g faces = .ok ((faces.map (fun f => g.faceAreas.getD f 0)).sum) := by
  have key : ∀ (l : List Nat) (s : Rat), (∀ f ∈ l, f < g.faceAreas.length) → l.foldlM (fun s f => do
      let a ← rd g.faceAreas f
      (.ok (s + a) : M Rat)) s = .ok (s + (l.map (fun f => g.faceAreas.getD f 0)).sum) := by
    intro l
    induction l with
    | nil => intro s _; simp
    | cons f l ih =>
      intro s hl
      have hf : g.faceAreas[f]? = some (g.faceAreas.getD f 0) := by rw [List.getD_eq_getElem?_getD, List.getElem?_eq_getElem (hl f (by simp))]; rfl
      rw [List.foldlM_cons, rd_of_getElem? hf, bind_ok, bind_ok, ih _ (fun x hx => hl x (by simp [hx])), List.map_cons, List.sum_cons, add_assoc]
  unfold totalArea
  rw [key faces 0 h, zero_add]

/-- The flux of a face of the side: the part of the total flux that its area is of the total area. -/
def share (g : SideGrid) (faces : List Nat) (q : Rat) (f : Nat) : Rat := q * g.faceAreas.getD f 0 / (faces.map (fun f => g.faceAreas.getD f 0)).sum

/-- Flux through a side is a condition for each face of the side, with fluxes in proportion to areas. -/
theorem flux_side {J : Junk} {g : SideGrid} {side : Nat} {faces : List Nat} (hf : findSideFaces g side = .ok faces) (ha : ∀ f ∈ faces, f < g.faceAreas.length) (ht : faces ≠ [] → (faces.map (fun f => g.faceAreas.getD f 0)).sum ≠ 0)
    (q : Rat) {b : Bcs} {cs : List Cond} (hb : Rep b cs) : ∃ b', fluxSide J g side q b = .ok b' ∧ Rep b' (cs ++ faces.map (fun f => ⟨.fluxTotvol, share g faces q f, [(f : Int)]⟩)) := by
  unfold fluxSide
  rw [hf, bind_ok, totalArea_eq ha, bind_ok]
  unfold share
  generalize (faces.map (fun f => g.faceAreas.getD f 0)).sum = tot at *
  clear hf
  by_cases hn : faces = []
  · subst hn
    exact ⟨b, rfl, by simpa using hb⟩
  have ht' := ht hn
  clear ht hn
  induction faces generalizing b cs with
  | nil => exact ⟨b, rfl, by simpa using hb⟩
  | cons f l ih =>
    have hf : g.faceAreas[f]? = some (g.faceAreas.getD f 0) := by rw [List.getD_eq_getElem?_getD, List.getElem?_eq_getElem (ha f (by simp))]; rfl
    obtain ⟨b1, e1, r1⟩ := append_rep J hb .fluxTotvol [(f : Int)] (q * g.faceAreas.getD f 0 / tot)
    obtain ⟨b2, e2, r2⟩ := ih (fun x hx => ha x (by simp [hx])) r1
    refine ⟨b2, ?_, by simpa using r2⟩
    rw [List.foldlM_cons, rd_of_getElem? hf, bind_ok, fdiv_ok ht', bind_ok]
    unfold FlowBc.append
    rw [e1, bind_ok]
    exact e2

/-- The fluxes add up to the total, and all faces have the same velocity. -/
theorem shares (g : SideGrid) (faces : List Nat) (q : Rat) (ht : (faces.map (fun f => g.faceAreas.getD f 0)).sum ≠ 0) :
    (faces.map (share g faces q)).sum = q ∧ ∀ f, share g faces q f = q / (faces.map (fun f => g.faceAreas.getD f 0)).sum * g.faceAreas.getD f 0 := by
  have h2 : ∀ f, share g faces q f = q / (faces.map (fun f => g.faceAreas.getD f 0)).sum * g.faceAreas.getD f 0 := fun f => by unfold share; ring
  refine ⟨?_, h2⟩
  have key : ∀ (l : List Nat) (k : Rat), (l.map (fun f => k * g.faceAreas.getD f 0)).sum = k * (l.map (fun f => g.faceAreas.getD f 0)).sum := by
    intro l k
    induction l with
    | nil => simp
    | cons f l ih => rw [List.map_cons, List.sum_cons, ih, List.map_cons, List.sum_cons]; ring
  rw [show share g faces q = fun f => q / (faces.map (fun f => g.faceAreas.getD f 0)).sum * g.faceAreas.getD f 0 from funext h2, key]
  field_simp

/-- The faces that a call uses, when it succeeds. -/
def Call.Good (faces : SideGrid → Nat → List Nat) : Call → Prop
  | .clear => True
  | .append _ _ _ => True
  | .pressureSide g s _ => findSideFaces g s = .ok (faces g s) ∧ faces g s ≠ []
  | .fluxSide g s _ => findSideFaces g s = .ok (faces g s) ∧ (∀ f ∈ faces g s, f < g.faceAreas.length) ∧ (faces g s ≠ [] → ((faces g s).map (fun f => g.faceAreas.getD f 0)).sum ≠ 0)

/-- The conditions after a call. -/
def Call.result (faces : SideGrid → Nat → List Nat) (cs : List Cond) : Call → List Cond
  | .clear => []
  | .append t f v => cs ++ [⟨t, v, [f]⟩]
  | .pressureSide g s p => cs ++ [⟨.pressure, p, (faces g s).map (fun f : Nat => (f : Int))⟩]
  | .fluxSide g s q => cs ++ (faces g s).map (fun f => ⟨.fluxTotvol, share g (faces g s) q f, [(f : Int)]⟩)

/-- After any history of calls the managed conditions are those of the history. -/
theorem manager_is_a_list (J : Junk) (faces : SideGrid → Nat → List Nat) (calls : List Call) (h : ∀ c ∈ calls, c.Good faces) :
    ∃ b, manage J calls = .ok b ∧ b.nbc = (calls.foldl (Call.result faces) []).length ∧ ∀ (i : Nat) (c : Cond), (calls.foldl (Call.result faces) [])[i]? = some c → get b i = .ok c := by
  obtain ⟨b0, e0, h0⟩ := construct_rep J 0
  have key : ∀ (l : List Call) (b : Bcs) (cs : List Cond), (∀ c ∈ l, c.Good faces) → Rep b cs → ∃ b', l.foldlM (fun b c => c.exec J b) b = .ok b' ∧ Rep b' (l.foldl (Call.result faces) cs) := by
    intro l
    induction l with
    | nil => intro b cs _ hb; exact ⟨b, rfl, hb⟩
    | cons c l ih =>
      intro b cs hl hb
      have hc := hl c (by simp)
      have hstep : ∃ b', c.exec J b = .ok b' ∧ Rep b' (c.result faces cs) := by
        cases c with
        | clear => exact ⟨_, rfl, clear_rep hb⟩
        | append t f v => exact append_rep J hb t [f] v
        | pressureSide g s p => exact pressure_side hc.1 hc.2 p hb
        | fluxSide g s q => exact flux_side hc.1 hc.2.1 hc.2.2 q hb
      obtain ⟨b1, e1, r1⟩ := hstep
      obtain ⟨b2, e2, r2⟩ := ih b1 _ (fun x hx => hl x (by simp [hx])) r1
      exact ⟨b2, by rw [List.foldlM_cons, e1, bind_ok]; exact e2, r2⟩
  obtain ⟨b, e, hr⟩ := key calls b0 [] h h0
  refine ⟨b, ?_, hr.nbc, get_rep hr⟩
  unfold manage
  rw [e0, bind_ok]
  exact e

end Opm.FlowBcManager
