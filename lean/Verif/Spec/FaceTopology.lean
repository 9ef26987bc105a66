import Verif.Model.FaceTopology
import Mathlib.Data.List.Forall2
/-!
# Connections along a pair of pillars: specification

A stack of layers between two pillars is given by the numbers of the points in which its lines meet the first (`p`) and the second pillar (`q`).  Numbers on one pillar
increase downwards.
-/

namespace Opm.Cpg
open Opm UniquePoints

/-- The lines of a stack. -/
structure Stack where
  p : Nat → Int
  q : Nat → Int

/-- The layer between lines `i` and `i + 1`. -/
def Stack.layer (a : Stack) (i : Nat) : Layer := ⟨a.p i, a.p (i + 1), a.q i, a.q (i + 1)⟩

/-- A stack of `n` lines, the first far above and the last far below all points; cells, the layers with odd numbers, are between points unless they are empty. -/
structure Stack.Ok (a : Stack) (n : Nat) : Prop where
  monoP : ∀ i, i + 1 < n → a.p i ≤ a.p (i + 1)
  monoQ : ∀ i, i + 1 < n → a.q i ≤ a.q (i + 1)
  first : a.p 0 = intMin ∧ a.q 0 = intMin
  last : a.p (n - 1) = intMax ∧ a.q (n - 1) = intMax
  cell : ∀ i, i % 2 = 1 → i + 1 < n → (a.p i = a.p (i + 1) ∧ a.q i = a.q (i + 1)) ∨ (intMin < a.p i ∧ a.p (i + 1) < intMax)
  valid : ∀ i, i < n → a.p i ≠ -1 ∧ a.q i ≠ -1

/-- The layer is empty: its two lines are the same. -/
def Stack.Empty (a : Stack) (i : Nat) : Prop := a.p i = a.p (i + 1) ∧ a.q i = a.q (i + 1)

/-- Line `i` of `a` and line `j` of `b` cross between the pillars: they are in opposite order on the two pillars. -/
def Cross (a b : Stack) (i j : Nat) : Prop := (a.p i < b.p j ∧ b.q j < a.q i) ∨ (b.p j < a.p i ∧ a.q i < b.q j)

instance (a : Stack) (i : Nat) : Decidable (a.Empty i) := by unfold Stack.Empty; infer_instance

instance (a b : Stack) (i j : Nat) : Decidable (Cross a b i j) := by unfold Cross; infer_instance

/-- The point numbers that define the crossing of two lines. -/
def quad (a b : Stack) (i j : Nat) : List Int := [a.p i, a.q i, b.p j, b.q j]

/-- A face: its two neighbours (`-1`: none) and its points. -/
structure Face where
  a : Int
  b : Int
  nodes : List Int
  deriving DecidableEq, Repr

/-- The layer is a cell, not a gap. -/
def IsCell (i : Nat) : Prop := i % 2 = 1

instance (i : Nat) : Decidable (IsCell i) := by unfold IsCell; infer_instance

/-- Depth of a line at distance `t` from the first pillar (`t = 1` at the second), if points of the pillars have depths `hp` and `hq`. -/
def Stack.depth (a : Stack) (hp hq : Int → Rat) (i : Nat) (t : Rat) : Rat := (1 - t) * hp (a.p i) + t * hq (a.q i)

/-- A point between the pillars is inside layer `i`. -/
def Stack.Inside (a : Stack) (hp hq : Int → Rat) (i : Nat) (t z : Rat) : Prop := a.depth hp hq i t < z ∧ z < a.depth hp hq (i + 1) t

instance (a : Stack) (hp hq : Int → Rat) (i : Nat) (t z : Rat) : Decidable (a.Inside hp hq i t z) := by unfold Stack.Inside; infer_instance

/-- Layer `i` of `a` and layer `j` of `b` overlap: some point between the pillars is inside both. -/
def Overlap (a b : Stack) (hp hq : Int → Rat) (i j : Nat) : Prop := ∃ t z : Rat, 0 < t ∧ t < 1 ∧ a.Inside hp hq i t z ∧ b.Inside hp hq j t z

/-- The corners of the part of the plane between the pillars that belongs to layer `i` of `a` and to layer `j` of `b`, beginning at the left and going along the upper
boundary first; `x` gives the numbers of crossings.  On the left there is a crossing if the layers do not meet on the first pillar, one point if they touch there, two if they
overlap there; the same on the right.  The upper lines, and the lower lines, may cross. -/
def outline (a b : Stack) (x : Nat → Nat → Int) (i j : Nat) : List Int :=
  (if b.p (j + 1) < a.p i then [x i (j + 1)] else if a.p (i + 1) < b.p j then [x (i + 1) j] else []) ++
  (if max (a.p i) (b.p j) < min (a.p (i + 1)) (b.p (j + 1)) then [max (a.p i) (b.p j)] else []) ++
  (if Cross a b i j then [x i j] else []) ++
  (if max (a.q i) (b.q j) < min (a.q (i + 1)) (b.q (j + 1)) then [max (a.q i) (b.q j)] else []) ++
  (if b.q (j + 1) < a.q i then [x i (j + 1)] else if a.q (i + 1) < b.q j then [x (i + 1) j] else []) ++
  (if max (a.q i) (b.q j) ≤ min (a.q (i + 1)) (b.q (j + 1)) then [min (a.q (i + 1)) (b.q (j + 1))] else []) ++
  (if Cross a b (i + 1) (j + 1) then [x (i + 1) (j + 1)] else []) ++
  (if max (a.p i) (b.p j) ≤ min (a.p (i + 1)) (b.p (j + 1)) then [min (a.p (i + 1)) (b.p (j + 1))] else [])

/-- Points of a list of faces. -/
def faceNodes (fs : List Face) : List Int := fs.flatMap Face.nodes

/-- Neighbours of a list of faces. -/
def faceNbrs (fs : List Face) : List Int := fs.flatMap (fun f => [f.a, f.b])

/-- Where the points of the faces begin. -/
def facePtr (fs : List Face) : List Nat := (List.range (fs.length + 1)).map (fun k => (faceNodes (fs.take k)).length)

/-- Number of the cell of a layer within its stack; `-1` for a gap. -/
def cellNumber (i : Nat) : Int := if IsCell i then ((i / 2 : Nat) : Int) else -1

/-- Depths that increase with the numbers of the points. -/
def Deeper (h : Int → Rat) : Prop := ∀ x y : Int, x < y → h x < h y

/-- The face between layers `ij.1` of `A` and `ij.2` of `B`: its neighbours are the two cells, its points the corners of the common part, in cyclic order. -/
def FaceOf (A B : Stack) (x : Nat → Nat → Int) (ij : Nat × Nat) (f : Face) : Prop :=
  f.a = cellNumber ij.1 ∧ f.b = cellNumber ij.2 ∧ ∃ k, f.nodes = (outline A B x ij.1 ij.2).rotate k

/-- `fs` are the faces between two stacks of `n` lines, `qs` the crossings of their lines; the first crossing is given the number `base`. -/
structure Connections (A B : Stack) (n base : Nat) (fs : List Face) (qs : List (List Int)) : Prop where
  /-- One face for each pair of overlapping layers that are not both gaps, in lexicographic order; its crossings are numbered as they are in `qs`. -/
  faces : ∃ (x : Nat → Nat → Int) (pairs : List (Nat × Nat)),
    pairs.Pairwise (fun a b => a.1 < b.1 ∨ (a.1 = b.1 ∧ a.2 < b.2)) ∧
    (∀ hp hq, Deeper hp → Deeper hq → ∀ i j, (i, j) ∈ pairs ↔ i < n - 1 ∧ j < n - 1 ∧ (IsCell i ∨ IsCell j) ∧ Overlap A B hp hq i j) ∧
    List.Forall₂ (FaceOf A B x) pairs fs ∧
    ∀ i j, i < n → j < n → Cross A B i j → ∃ k, x i j = ((base + k : Nat) : Int) ∧ qs[k]? = some (quad A B i j)
  /-- Each crossing is listed once. -/
  once : qs.Nodup
  /-- Only crossings are listed. -/
  cross : ∀ q ∈ qs, ∃ i j, i < n ∧ j < n ∧ Cross A B i j ∧ q = quad A B i j

/-- Points on the two pillars have different numbers, which are smaller than those of crossings. -/
structure Separate (A B : Stack) (n base : Nat) : Prop where
  onP : ∀ S ∈ [A, B], ∀ i, i < n → S.p i < intMax → S.p i < base
  onQ : ∀ S ∈ [A, B], ∀ i, i < n → S.q i < intMax → S.q i < base
  differ : ∀ S ∈ [A, B], ∀ T ∈ [A, B], ∀ i j, i < n → j < n → intMin < S.p i → S.p i < intMax → S.p i ≠ T.q j
  cellQ : ∀ S ∈ [A, B], ∀ i, IsCell i → i + 1 < n → S.Empty i ∨ (intMin < S.q i ∧ S.q (i + 1) < intMax)

end Opm.Cpg
