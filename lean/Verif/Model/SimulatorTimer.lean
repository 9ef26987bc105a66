import Mathlib.Algebra.Field.Defs
import Verif.Core.Mem
/-!
# Model of `opm/core/simulator/SimulatorTimer.{hpp,cpp}`

Simplifications: `double` is a field `K`; the calendar start date (`start_date_`,
SimulatorTimer.hpp:93) and `report`/`currentDateTime` (cpp:99-129) are not modelled.
`total_time_` is not set by the constructor (cpp:32-37), hence `Option`.
-/

namespace Opm.SimulatorTimer

variable {K : Type} [Field K]

/-- SimulatorTimer.hpp:89-92, the data members. -/
structure Timer (K : Type) where
  timesteps : List K
  currentStep : Int
  currentTime : K
  totalTime : Option K
  deriving DecidableEq

/-- SimulatorTimer.cpp:32-37, default constructor. -/
def Timer.new : Timer K :=
  { timesteps := [], currentStep := 0, currentTime := 0, totalTime := none }

/-- `std::accumulate(first, last, 0.0)` as used in SimulatorTimer.cpp:56 and :81. -/
def accumulate (l : List K) : K := l.foldl (· + ·) 0

/-- SimulatorTimer.cpp:42-50, `init(const ParameterGroup&)`: `num_psteps` steps of
`stepsize_days` days.  A negative count makes `vector::resize` throw. `day` is `unit::day`. -/
def initParam (day : K) (numPsteps : Int) (stepsizeDays : K) (s : Timer K) : M (Timer K) :=
  let stepsize := stepsizeDays * day
  if numPsteps < 0 then .error .thrown
  else .ok { s with timesteps := List.replicate numPsteps.toNat stepsize
                    totalTime := some (numPsteps.toNat * stepsize) }

/-- SimulatorTimer.cpp:53-58, `init(const EclipseGridParser&)` with `TSTEP` = `steps`. -/
def initDeck (steps : List K) (s : Timer K) : Timer K :=
  { s with timesteps := steps, totalTime := some (accumulate steps) }

/-- SimulatorTimer.cpp:61-64. -/
def numSteps (s : Timer K) : Nat := s.timesteps.length

/-- SimulatorTimer.cpp:73-82.  The guard tests the *old* `current_step_`, not the argument.
`timesteps_.begin() + step` outside `[begin, end]` is undefined behaviour. -/
def setCurrentStepNum (step : Int) (s : Timer K) : M (Timer K) :=
  if s.currentStep < 0 ∨ s.currentStep > (s.timesteps.length : Int) then .error .thrown
  else if step < 0 ∨ step > (s.timesteps.length : Int) then .error .ub
  else .ok { s with currentStep := step
                    currentTime := accumulate (s.timesteps.take step.toNat) }

/-- SimulatorTimer.cpp:141-144. -/
def done (s : Timer K) : Bool := (s.timesteps.length : Int) == s.currentStep

/-- SimulatorTimer.cpp:86-90. -/
def currentStepLength (s : Timer K) : M K := do
  check (!done s)
  rdI s.timesteps s.currentStep

/-- SimulatorTimer.cpp:93-96. -/
def getCurrentTime (s : Timer K) : K := s.currentTime

/-- SimulatorTimer.cpp:107-110; reading it before `init`/`setTotalTime` reads an
uninitialised member. -/
def getTotalTime (s : Timer K) : M K :=
  match s.totalTime with
  | some t => .ok t
  | none => .error .ub

/-- SimulatorTimer.cpp:116-119. -/
def setTotalTime (t : K) (s : Timer K) : Timer K := { s with totalTime := some t }

/-- SimulatorTimer.cpp:132-138, `operator++`. -/
def next (s : Timer K) : M (Timer K) := do
  check (!done s)
  let dt ← rdI s.timesteps s.currentStep
  .ok { s with currentTime := s.currentTime + dt, currentStep := s.currentStep + 1 }

/-- The mutating calls a user can make. -/
inductive Op (K : Type) where
  | initDeck (steps : List K)
  | setStep (step : Int)
  | next
  | setTotal (t : K)

/-- One call. -/
def step (s : Timer K) : Op K → M (Timer K)
  | .initDeck l => .ok (initDeck l s)
  | .setStep k => setCurrentStepNum k s
  | .next => next s
  | .setTotal t => .ok (setTotalTime t s)

/-- A history of calls. -/
def run (s : Timer K) : List (Op K) → M (Timer K)
  | [] => .ok s
  | o :: os => do
    let s' ← step s o
    run s' os

end Opm.SimulatorTimer
