import Mathlib.Algebra.Order.Field.Basic
/-!
# Specification vocabulary for one-dimensional interpolation

A data set is a list of points `(x, f)`.  Nothing here refers to the model of the code.
-/

namespace Opm.MonotCubic.Spec

variable {K : Type} [Field K] [LinearOrder K]

/-- The values never decrease. -/
def NonDecreasing (fs : List K) : Prop := fs.Pairwise (· ≤ ·)

/-- The values never increase. -/
def NonIncreasing (fs : List K) : Prop := fs.Pairwise (· ≥ ·)

/-- The values strictly increase. -/
def Increasing (fs : List K) : Prop := fs.Pairwise (· < ·)

/-- The values strictly decrease. -/
def Decreasing (fs : List K) : Prop := fs.Pairwise (· > ·)

/-- What the square root must satisfy: non-negative, and not rounded down.  The exact square root on the
real numbers satisfies this. -/
def IsRoot (sqrt : K → K) : Prop := ∀ y, 0 ≤ y → 0 ≤ sqrt y ∧ y ≤ sqrt y * sqrt y

/-- Slope of the chord through two points. -/
def chord (p q : K × K) : K := (q.2 - p.2) / (q.1 - p.1)

/-- The `i`-th point of a data set. -/
def pt (l : List (K × K)) (i : Nat) : K × K := l.getD i (0, 0)

/-- The slope at a point: one-sided at the two ends, the mean of the two chords inside. -/
def meanSlope (l : List (K × K)) (i : Nat) : K :=
  if i = 0 then chord (pt l 0) (pt l 1)
  else if i + 1 = l.length then chord (pt l (i - 1)) (pt l i)
  else (chord (pt l (i - 1)) (pt l i) + chord (pt l i) (pt l (i + 1))) / 2

/-- The cubic polynomial through `p` and `q` with slope `m` at `p` and slope `n` at `q`. -/
def cubic (p q : K × K) (m n x : K) : K :=
  p.2 + m * (x - p.1) + (3 * chord p q - 2 * m - n) / (q.1 - p.1) * (x - p.1) ^ 2
    + (m + n - 2 * chord p q) / (q.1 - p.1) ^ 2 * (x - p.1) ^ 3

/-- The Fritsch-Carlson condition on the slopes at the ends of interval `i`, and the interval is not flat. -/
def Moderate (l : List (K × K)) (i : Nat) : Prop :=
  1 / 100000000000000 ≤ |chord (pt l i) (pt l (i + 1))| ∧
    (meanSlope l i / chord (pt l i) (pt l (i + 1))) ^ 2
      + (meanSlope l (i + 1) / chord (pt l i) (pt l (i + 1))) ^ 2 ≤ 9

/-- The last of the values paired with `x`. -/
def lastValue (x : K) (l : List (K × K)) : Option K := (l.reverse.find? (fun p => decide (p.1 = x))).map (·.2)

/-- `new` results from `old` by removing points: the first point stays, neighbouring remaining values differ
by at least `eps`, and the value of every removed point is within `eps` of a remaining value. -/
structure Thinned (eps : K) (old new : List (K × K)) : Prop where
  sublist : new.Sublist old
  first : new.head? = old.head?
  apart : ∀ i p q, new[i]? = some p → new[i + 1]? = some q → eps ≤ |p.2 - q.2|
  close : ∀ p ∈ old, p ∈ new ∨ ∃ q ∈ new, q.1 < p.1 ∧ |q.2 - p.2| < eps

end Opm.MonotCubic.Spec
