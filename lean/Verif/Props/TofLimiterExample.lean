import Verif.Props.TofLimiter
/-!
# The limiter on two cells

The line from 0 to 2 with two cells, flow from left to right.  The hypotheses of the theorems are met, and the cases in which the limiter does not do what it shall are reached.
-/

namespace Opm.TofLimiter
open Opm
open _root_.Opm.DGBasis (Kind)

/-- Two cells of length one. -/
def line (k : Kind) (q : Rat) : Solver where
  nc := 2
  facepos := [0, 2, 4]
  cellfaces := [0, 1, 1, 2]
  faceCells := [-1, 0, 0, 1, 1, -1]
  nodepos := [0, 1, 2, 3]
  facenodes := [0, 1, 2]
  coords := [0, 1, 2]
  flux := [q, 1, 1]
  basis := ⟨k, 1, 1, [1 / 2, 3 / 2]⟩
  threshold := 1 / 1000

/-- Its faces. -/
def lineFaces (c : Nat) : List Nat := [c, c + 1]

/-- Its nodes. -/
def lineNodes (f : Nat) : List Nat := [f]

theorem line_ready (k : Kind) (q : Rat) (a : List Rat) (h : 4 ≤ a.length) : Ready (line k q) lineFaces lineNodes a := by
  have h2 : ∀ c, c < (line k q).nc → c = 0 ∨ c = 1 := fun c hc => by
    have : (line k q).nc = 2 := rfl
    omega
  have hf : ∀ c f, c < (line k q).nc → f ∈ lineFaces c → f = 0 ∨ f = 1 ∨ f = 2 := fun c f hc hm => by
    have := h2 c hc
    simp only [lineFaces, List.mem_cons, List.not_mem_nil, or_false] at hm
    omega
  refine ⟨fun c hc => ⟨by cases k <;> rfl, le_refl _, ?_⟩, rfl, ?_, fun c hc => ?_, fun c f hc hm => ?_, fun c f hc hm => ?_, fun c f hc hm => ?_, fun c f n hc hm hn => ?_⟩
  · rcases h2 c hc with rfl | rfl <;> norm_num [line]
  · have : (line k q).nb = 2 := by cases k <;> rfl
    rw [this]
    exact h
  · rcases h2 c hc with rfl | rfl
    exacts [⟨0, 2, rfl, rfl, rfl⟩, ⟨2, 4, rfl, rfl, rfl⟩]
  · rcases hf c f hc hm with rfl | rfl | rfl
    exacts [⟨0, 1, rfl, rfl, rfl⟩, ⟨1, 2, rfl, rfl, rfl⟩, ⟨2, 3, rfl, rfl, rfl⟩]
  · rcases hf c f hc hm with rfl | rfl | rfl <;> exact ⟨by norm_num [line], by norm_num [line]⟩
  · rcases hf c f hc hm with rfl | rfl | rfl <;> exact ⟨by norm_num [line], by norm_num [line]⟩
  · simp only [lineNodes, List.mem_singleton] at hn
    subst hn
    rcases hf c n hc hm with rfl | rfl | rfl <;> norm_num [line]

/-- The face between the cells is an upstream face of the second one. -/
theorem line_upstream (k : Kind) : ∃ f ∈ lineFaces 1, Upstream (line k 1) lineFaces 1 f := by
  refine ⟨1, by decide, ?_⟩
  unfold Upstream
  cases k <;> decide +kernel

/-- A steep solution in the second cell is limited to the value at the other side of the face. -/
example : applyLimiter (line .totalDegree 1) .minUpwindFace 1 [1 / 2, 1, 5 / 4, 2] [1 / 2, 1, 5 / 4, 2] = .ok [1 / 2, 1, 5 / 4, 1 / 2] := by decide +kernel

example : applyLimiter (line .multilin 1) .minUpwindAverage 1 [0, 1, 1 / 4, 9 / 4] [0, 1, 1 / 4, 9 / 4] = .ok [0, 1, 1 / 2, 2] := by decide +kernel

example : Limits (line .totalDegree 1) lineFaces lineNodes .minUpwindFace [1 / 2, 1, 5 / 4, 2] 1 [1 / 2, 1, 5 / 4, 1 / 2] :=
  limited_partial (line_ready _ _ _ (by decide)) _ (by decide) (by decide) (fun _ _ => rfl) (show applyLimiter _ _ 1 _ [1 / 2, 1, 5 / 4, 2] = _ by decide +kernel) (line_upstream _) (Or.inl rfl)

/-- An average below the bound: raised to it, or not quite. -/
example : applyLimiter (line .totalDegree 1) .minUpwindFace 1 [1 / 2, 1, 0, 2] [1 / 2, 1, 0, 2] = .ok [1 / 2, 1, 1, 0] := by decide +kernel

example : applyLimiter (line .multilin 1) .minUpwindFace 1 [0, 1, -1, 1] [0, 1, -1, 1] = .ok [0, 1, 1 / 2, 1 / 2] := by decide +kernel

theorem line_bound : IsBound (line .multilin 1) lineFaces lineNodes .minUpwindFace [0, 1, -1, 1] 1 1 := by
  have hall : ∀ f ∈ lineFaces 1, Upstream (line .multilin 1) lineFaces 1 f → f = 1 := by
    intro f hf hu
    simp only [lineFaces, List.mem_cons, List.not_mem_nil, or_false] at hf
    rcases hf with rfl | rfl
    · rfl
    · exfalso
      revert hu
      unfold Upstream
      decide +kernel
  have hb : beyond (line .multilin 1) lineNodes .minUpwindFace [0, 1, -1, 1] 1 1 = [1] := by decide +kernel
  refine ⟨by decide, fun _ => ⟨fun B hB => ?_, Or.inr ⟨by unfold huge; norm_num, fun f hf hu v hv => ?_⟩⟩, fun w => ?_⟩
  · obtain ⟨f, hf, hu⟩ := line_upstream .multilin
    have := hall f hf hu
    subst this
    exact hB.2 _ hf hu 1 (by rw [hb]; simp)
  · have := hall f hf hu
    subst this
    rw [hb] at hv
    simp at hv
    rw [hv]
  · obtain ⟨f, hf, hu⟩ := line_upstream .multilin
    exact absurd hu (w f hf)

/-- The full claim is false with the multilinear basis: the value at the common face stays below that at the other side. -/
theorem multilin_not_limited : ∃ t, applyLimiter (line .multilin 1) .minUpwindFace 1 [0, 1, -1, 1] [0, 1, -1, 1] = .ok t ∧ ¬ Limits (line .multilin 1) lineFaces lineNodes .minUpwindFace [0, 1, -1, 1] 1 t := by
  refine ⟨[0, 1, 1 / 2, 1 / 2], by decide +kernel, fun w => ?_⟩
  have h1 := w 1 line_bound 1 (by decide) 1 (by decide)
  revert h1
  decide +kernel

/-- The full claim is false without upstream face: the first cell gets all its fluid from a source, and its values reach below zero. -/
theorem source_cell_not_limited : ∃ t, applyLimiter (line .totalDegree 0) .minUpwindFace 0 [1 / 2, 4, 1, 0] [1 / 2, 4, 1, 0] = .ok t ∧ ¬ Limits (line .totalDegree 0) lineFaces lineNodes .minUpwindFace [1 / 2, 4, 1, 0] 0 t := by
  refine ⟨[1 / 2, 4, 1, 0], by decide +kernel, fun w => ?_⟩
  have hno : ∀ f ∈ lineFaces 0, ¬ Upstream (line .totalDegree 0) lineFaces 0 f := by
    intro f hf
    simp only [lineFaces, List.mem_cons, List.not_mem_nil, or_false] at hf
    unfold Upstream
    rcases hf with rfl | rfl <;> decide +kernel
  have h1 := w 0 ⟨le_refl _, fun ⟨f, hf, hu⟩ => absurd hu (hno f hf), fun _ => rfl⟩ 0 (by decide) 0 (by decide)
  revert h1
  decide +kernel

/-- A constant solution equal to that upstream makes the call fail. -/
example : applyLimiter (line .totalDegree 1) .minUpwindFace 1 [1, 0, 1, 0] [1, 0, 1, 0] = .error .assertFail := by decide +kernel

example : simultaneous (line .totalDegree 1) .minUpwindFace [1 / 2, 1 / 2, 5 / 4, 2] = .ok [1 / 2, 1 / 2, 5 / 4, 1] := by decide +kernel

example : postProcess (line .totalDegree 1) .minUpwindFace [0, 1] [1 / 2, 2, 5 / 4, 2] = .ok [1 / 2, 1, 5 / 4, 1 / 2] := by decide +kernel

end Opm.TofLimiter
