import Verif.Props.TofDiscGal
import Verif.Props.CfsTpfa
import Verif.Proofs.GridValid
import Mathlib.Tactic.IntervalCases
/-!
# The discontinuous Galerkin method on two squares

Two unit squares side by side, flow from left to right with velocity one, linear functions.  The hypotheses of the theorems are met, and the result is the exact time of flight, the distance from the left boundary.
-/

namespace Opm.TofDiscGal
open Opm Finset
open _root_.Opm.CfsTpfa (Regular LapackOk)

/-- A solver for small systems. -/
noncomputable def lapack : CfsTpfa.Lapack := Classical.choose CfsTpfa.exists_lapack

theorem lapack_ok : LapackOk lapack := Classical.choose_spec CfsTpfa.exists_lapack

/-- Two unit squares. -/
noncomputable def squares : Problem where
  nc := 2
  nf := 7
  G := { dim := 2, coords := [0, 0, 1, 0, 2, 0, 0, 1, 1, 1, 2, 1], nodepos := [0, 2, 4, 6, 8, 10, 12, 14], facenodes := [0, 3, 1, 4, 2, 5, 0, 1, 3, 4, 1, 2, 4, 5],
         facepos := [0, 4, 8], cellfaces := [0, 1, 3, 4, 1, 2, 5, 6], faceCentroids := [0, 1 / 2, 1, 1 / 2, 2, 1 / 2, 1 / 2, 0, 1 / 2, 1, 3 / 2, 0, 3 / 2, 1], faceAreas := [1, 1, 1, 1, 1, 1, 1],
         cellCentroids := [1 / 2, 1 / 2, 3 / 2, 1 / 2], cellVolumes := [1, 1] }
  faceCells := [-1, 0, 0, 1, 1, -1, -1, 0, 0, -1, -1, 1, 1, -1]
  flux := [1, 1, 1, 0, 0, 0, 0]
  porevolume := [1, 1]
  source := [0, 0]
  basis := ⟨.totalDegree, 2, 1, [1 / 2, 1 / 2, 3 / 2, 1 / 2]⟩
  threshold := 1 / 1000
  limiter := none
  sqrt := fun _ => 0
  vel := fun _ _ => .ok [1, 0]
  lu := lapack

/-- The points of a quadrature. -/
def got (e : M (List (List Rat × Rat))) : List (List Rat × Rat) := match e with
  | .ok l => l
  | .error _ => []

/-- Its faces. -/
def squareFaces (c : Nat) : List Nat := if c = 0 then [0, 1, 3, 4] else [1, 2, 5, 6]

noncomputable def squareCp (c : Nat) : List (List Rat × Rat) := got (cellPts squares c 1)
noncomputable def squareCq (c : Nat) : List (List Rat × Rat) := got (cellPts squares c 2)
noncomputable def squareFp (f : Nat) : List (List Rat × Rat) := got (facePts squares f 2)
def squareV (_ : Nat) (_ : List Rat) : List Rat := [1, 0]

theorem squares_data : ∀ c, c < squares.nc → CellData squares c (squareFaces c) (squareCp c) (squareCq c) squareFp (squareV c) := by
  intro c hc
  have h2 : ∀ c, c < squares.nc → c = 0 ∨ c = 1 := fun c hc => by
    have : squares.nc = 2 := rfl
    omega
  refine ⟨hc, fun d hd => ?_, ?_, ?_, ?_, ?_, ?_, ?_, ?_, ?_, ?_, ?_, ?_, ?_, ?_, ?_⟩
  · rcases h2 d hd with rfl | rfl <;> exact ⟨rfl, by decide +kernel, by decide +kernel⟩
  · rcases h2 c hc with rfl | rfl
    exacts [⟨0, 4, rfl, rfl, rfl⟩, ⟨4, 8, rfl, rfl, rfl⟩]
  all_goals rcases h2 c hc with rfl | rfl
  all_goals try decide +kernel
  all_goals exact fun p hp => ⟨rfl, by decide +kernel⟩

theorem squares_acyclic : NoCirculation squares.topo squares.flux := by
  have key : ∀ u d, squares.topo.FlowsTo squares.flux u d → u < d := by
    rintro u d ⟨f, q, hq, h⟩
    have hf : f < 7 := (List.getElem?_eq_some_iff.1 hq).1
    interval_cases f
    all_goals
      simp [squares] at hq
      subst hq
      rcases h with ⟨h, h1, h2⟩ | ⟨h, h1, h2⟩
      all_goals first
        | exact absurd h (by decide +kernel)
        | (simp [squares, Problem.topo] at h1 h2; done)
        | (simp [squares, Problem.topo] at h1 h2; omega)
  have lt : ∀ u d, Relation.TransGen (squares.topo.FlowsTo squares.flux) u d → u < d := by
    intro u d h
    induction h with
    | single h => exact key _ _ h
    | tail _ h ih => exact Nat.lt_trans ih (key _ _ h)
  exact fun c h => absurd (lt c c h) (by omega)

theorem squares_regular : ∀ c, c < squares.nc → Regular squares.nb (matrix squares c (squareFaces c) (squareCq c) squareFp (squareV c)) := by
  intro c hc w hw
  have hn : squares.nb = 3 := rfl
  have hA : (List.range 9).map (matrix squares c (squareFaces c) (squareCq c) squareFp (squareV c)) = [1, -1 / 2, 0, 1 / 2, 1 / 4, 0, 0, 0, 1 / 12] := by
    have hc' : c = 0 ∨ c = 1 := by
      have : squares.nc = 2 := rfl
      omega
    rcases hc' with rfl | rfl <;> decide +kernel
  simp only [List.range_succ, List.range_zero, List.nil_append, List.map_append, List.map_cons, List.map_nil, List.cons_append, List.cons.injEq, and_true] at hA
  obtain ⟨a0, a1, a2, a3, a4, a5, a6, a7, a8⟩ := hA
  rw [hn] at hw ⊢
  have e0 := hw 0 (by omega)
  have e1 := hw 1 (by omega)
  have e2 := hw 2 (by omega)
  simp only [sum_range_succ, sum_range_zero, Nat.zero_mul, Nat.one_mul, Nat.reduceMul, Nat.reduceAdd, Nat.add_zero, Nat.zero_add, a0, a1, a2, a3, a4, a5, a6, a7, a8] at e0 e1 e2
  intro j hj
  obtain rfl | rfl | rfl : j = 0 ∨ j = 1 ∨ j = 2 := by omega
  all_goals linarith

theorem squares_solvable : Solvable squares squareFaces squareCp squareCq squareFp squareV where
  valid := GridTopo.ValidB.valid (by decide +kernel)
  cells := by decide +kernel
  lenFlux := rfl
  data := squares_data
  regular := squares_regular

/-- The exact time of flight. -/
theorem squares_exact : ∃ t, solveTof 100 squares .no = .ok t ∧ ∀ c, c < 2 → ∀ i, i < 3 → t.getD (3 * c + i) 0 = [1 / 2, 1, 0, 3 / 2, 1, 0].getD (3 * c + i) 0 := by
  obtain ⟨t, e, -, h⟩ := solveTof_equations squares_solvable lapack_ok (.inl rfl) (fuel := 100) (by decide +kernel)
  refine ⟨t, e, fun c hc i hi => ?_⟩
  exact (solution_unique squares_solvable squares_acyclic (t := [1 / 2, 1, 0, 3 / 2, 1, 0]) (u := t) (by
    have key : ∀ c < 2, ∀ i < 3, lhs squares c (squareFaces c) (squareCq c) squareFp (squareV c) (tof squares [1 / 2, 1, 0, 3 / 2, 1, 0] c) i = rhs squares c [1 / 2, 1, 0, 3 / 2, 1, 0] (squareFaces c) (squareCp c) squareFp i := by decide +kernel
    exact fun c hc i hi => key c hc i hi) (fun c hc => h c hc (squares_acyclic c))) c hc i hi

/-- Two cells with flow in a circle, and flow through the first one. -/
def circle : Problem where
  nc := 2
  nf := 4
  G := { dim := 1, coords := [0, 1, 2], nodepos := [0, 1, 2, 3, 4], facenodes := [1, 1, 0, 0], facepos := [0, 4, 6], cellfaces := [0, 1, 2, 3, 0, 1], faceCentroids := [1, 1, 0, 0], faceAreas := [1, 1, 1, 1],
         cellCentroids := [1 / 2, 3 / 2], cellVolumes := [1, 1] }
  faceCells := [0, 1, 1, 0, -1, 0, 0, -1]
  flux := [1, 1, 1, 1]
  porevolume := [1, 1]
  source := [0, 0]
  basis := ⟨.totalDegree, 1, 0, [1 / 2, 3 / 2]⟩
  threshold := 1 / 1000
  limiter := none
  sqrt := fun _ => 0
  vel := fun _ _ => .ok [0]
  lu := fun _ A => if A 0 = 0 then none else some (fun b _ => b 0 / A 0)

/-- The equation of a cell of it. -/
def circleEq (t : List Rat) (c : Nat) : Prop :=
  lhs circle c (if c = 0 then [0, 1, 2, 3] else [0, 1]) (got (cellPts circle c 0)) (fun f => got (facePts circle f 0)) (fun _ => [0]) (tof circle t c) 0 =
    rhs circle c t (if c = 0 then [0, 1, 2, 3] else [0, 1]) (got (cellPts circle c 0)) (fun f => got (facePts circle f 0)) 0

instance (t : List Rat) (c : Nat) : Decidable (circleEq t c) := by unfold circleEq; infer_instance

/-- With circulation the equations are not solved, although they have a solution: each cell is solved once only. -/
theorem circulation_not_solved : (∃ t, solveTof 100 circle .no = .ok t ∧ circleEq t 0 ∧ ¬ circleEq t 1) ∧ circleEq [2, 3] 0 ∧ circleEq [2, 3] 1 :=
  ⟨⟨[1, 1], by decide +kernel, by decide +kernel, by decide +kernel⟩, by decide +kernel, by decide +kernel⟩

end Opm.TofDiscGal
