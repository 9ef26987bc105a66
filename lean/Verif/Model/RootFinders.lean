import Verif.Core.Mem
import Mathlib.Algebra.Order.Ring.Rat
import Mathlib.Algebra.Order.Group.Unbundled.Abs
/-!
# Root finders

Models `opm/core/utility/RootFinders.hpp`.  Numbers are exact rationals; the functor is a total function
`f : Rat → Rat`.  To be able to speak about where `f` is evaluated, the model also returns the list of
evaluation points, in order.  `MESSAGE` output is not modelled.
-/

namespace Opm.RootFinders
open Opm

/-- The error policies.  Models: `RootFinders.hpp:49-96`. -/
inductive Policy where
  | throwOnError
  | warnAndContinue
  | continueOnError
  deriving DecidableEq, Repr

/-- `handleBracketingFailure`.  Models: `RootFinders.hpp:51-56`, `:69-75`, `:88-91`. -/
def Policy.bracketingFailure (p : Policy) (x0 x1 f0 f1 : Rat) : M Rat :=
  match p with
  | .throwOnError => .error .thrown
  | .warnAndContinue => .ok (if |f0| < |f1| then x0 else x1)
  | .continueOnError => .ok (if |f0| < |f1| then x0 else x1)

/-- `handleTooManyIterations`.  Models: `RootFinders.hpp:57-63`, `:76-82`, `:92-95`. -/
def Policy.tooManyIterations (p : Policy) (x0 x1 : Rat) : M Rat :=
  match p with
  | .throwOnError => .error .thrown
  | .warnAndContinue => .ok (1 / 2 * (x0 + x1))
  | .continueOnError => .ok (1 / 2 * (x0 + x1))

/-- `std::numeric_limits<double>::epsilon()`.  Models: `RootFinders.hpp:120`. -/
def macheps : Rat := 1 / 2 ^ 52

/-- `eps`.  Models: `RootFinders.hpp:121`. -/
def eps (tol a b : Rat) : Rat := tol + macheps * max (max |a| |b|) 1

/-- `epsF`.  Models: `RootFinders.hpp:126`. -/
def epsF (tol f0 : Rat) : Rat := tol + macheps * max |f0| 1

/-- `regulaFalsiStep(a, b, fa, fb)`.  Models: `RootFinders.hpp:282-289`. -/
def regulaFalsiStep (a b fa fb : Rat) : M Rat := do
  check (decide (fa * fb < 0))
  fdiv (b * fa - a * fb) (fa - fb)

/-- What a call returns: the value, `iterations_used` (none if it was not assigned), the evaluation points. -/
structure Res where
  value : Rat
  iterations : Option Nat
  evals : List Rat
  deriving DecidableEq, Repr

/-- State of the iteration. -/
structure St where
  x0 : Rat
  x1 : Rat
  f0 : Rat
  f1 : Rat
  it : Nat
  evals : List Rat

/-- The `while` loop, fuel bounding the iterations.  Models: `RootFinders.hpp:140-180` and `:237-277`. -/
def iterate (p : Policy) (f : Rat → Rat) (maxIter : Int) (width epsF : Rat) : Nat → St → M Res
  | 0, _ => .error .timeout
  | fuel + 1, s =>
    if |s.x1 - s.x0| ≥ width then do
      let xnew ← regulaFalsiStep s.x0 s.x1 s.f0 s.f1
      let fnew := f xnew
      let evals := s.evals ++ [xnew]
      let it := s.it + 1
      if (it : Int) > maxIter then do
        let v ← p.tooManyIterations s.x0 s.x1
        .ok { value := v, iterations := some it, evals := evals }
      else if |fnew| < epsF then .ok { value := xnew, iterations := some it, evals := evals }
      else if decide (fnew > 0) == decide (s.f0 > 0) then
        iterate p f maxIter width epsF fuel { x0 := s.x1, f0 := s.f1, x1 := xnew, f1 := fnew, it := it, evals := evals }
      else do
        let gamma ← fdiv s.f1 (s.f1 + fnew)
        iterate p f maxIter width epsF fuel { x0 := s.x0, f0 := s.f0 * gamma, x1 := xnew, f1 := fnew, it := it, evals := evals }
    else .ok { value := 1 / 2 * (s.x0 + s.x1), iterations := some s.it, evals := s.evals }

/-- `RegulaFalsi::solve(f, a, b, max_iter, tolerance, iterations_used)`.
Models: `RootFinders.hpp:112-181`. -/
def solve (p : Policy) (f : Rat → Rat) (a b : Rat) (maxIter : Int) (tol : Rat) : M Res :=
  let f0 := f a
  let eF := epsF tol f0
  if |f0| < eF then .ok { value := a, iterations := none, evals := [a] }
  else
    let f1 := f b
    if |f1| < eF then .ok { value := b, iterations := none, evals := [a, b] }
    else if f0 * f1 > 0 then do
      let v ← p.bracketingFailure a b f0 f1
      .ok { value := v, iterations := none, evals := [a, b] }
    else
      iterate p f maxIter (1 / 10 ^ 9 * eps tol a b) eF (maxIter.toNat + 2)
        { x0 := a, x1 := b, f0 := f0, f1 := f1, it := 0, evals := [a, b] }

/-- The part of the second `solve` after both end points were evaluated.  Models: `RootFinders.hpp:224-277`. -/
def solveGuessCore (p : Policy) (f : Rat → Rat) (g a b fI f0 f1 : Rat) (maxIter : Int) (tol eF : Rat) (evals : List Rat) : M Res :=
  let s : St := if f0 * fI < 0 then { x0 := a, f0 := f0, x1 := g, f1 := fI, it := 0, evals := evals }
    else { x0 := g, f0 := fI, x1 := b, f1 := f1, it := 0, evals := evals }
  if s.f0 * s.f1 > 0 then do
    let v ← p.bracketingFailure a b s.f0 s.f1
    .ok { value := v, iterations := none, evals := evals }
  else iterate p f maxIter (1 / 10 ^ 9 * eps tol a b) eF (maxIter.toNat + 2) s

/-- `RegulaFalsi::solve(f, initial_guess, a, b, max_iter, tolerance, iterations_used)`.
Models: `RootFinders.hpp:191-278`. -/
def solveGuess (p : Policy) (f : Rat → Rat) (g a b : Rat) (maxIter : Int) (tol : Rat) : M Res :=
  let fI := f g
  let eF := epsF tol fI
  if |fI| < eF then .ok { value := g, iterations := none, evals := [g] }
  else
    let f0 := if a ≠ g then f a else fI
    let ev := if a ≠ g then [g, a] else [g]
    if a ≠ g ∧ |f0| < eF then .ok { value := a, iterations := none, evals := ev }
    else
      let f1 := if b ≠ g then f b else fI
      let ev := if b ≠ g then ev ++ [b] else ev
      if b ≠ g ∧ |f1| < eF then .ok { value := b, iterations := none, evals := ev }
      else solveGuessCore p f g a b fI f0 f1 maxIter tol eF ev

/-- The search loop of `bracketZero`: `rem` iterations remain, `i` have been done.
Returns the final `i` and `cur_dx`.  Models: `RootFinders.hpp:309-316`. -/
def bracketLoop (f : Rat → Rat) (x0 f0 : Rat) : Nat → Nat → Rat → Nat × Rat
  | 0, i, cur => (i, cur)
  | rem + 1, i, cur => if f0 * f (x0 + cur) ≤ 0 then (i, cur) else bracketLoop f x0 f0 rem (i + 1) (-2 * cur)

/-- `bracketZero(f, x0, dx, a, b)`; returns `(a, b)`.  Models: `RootFinders.hpp:299-327`. -/
def bracketZero (f : Rat → Rat) (x0 dx : Rat) : M (Rat × Rat) :=
  let f0 := f x0
  let r := bracketLoop f x0 f0 100 0 dx
  let i := r.1
  let cur := r.2
  if i = 100 then .error .thrown
  else if cur < 0 then .ok (x0 + cur, if i < 2 then x0 else x0 + 1 / 4 * cur)
  else .ok (if i < 2 then x0 else x0 + 1 / 4 * cur, x0 + cur)

end Opm.RootFinders
