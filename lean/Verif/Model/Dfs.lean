import Verif.Core.Mem
/-!
# Connected-component colouring

Models `opm/core/pressure/msmfem/dfs.c`.  `int` values are unbounded integers.  The `work` buffer
is one list: the stack starts at offset `0` and the counters at offset `size`, as in the code, so
a stack that grows past `size` entries runs into the counters.
-/

namespace Opm.Dfs
open Opm

/-- The state of the main loop: `color`, `work` and the stack pointer `stack - work`.
Models: `dfs.c:29-35`. -/
structure State where
  color : List Int
  work : List Int
  sp : Nat
  deriving DecidableEq

/-- `enum {UNVISITED = -1, VISITED = -2}`.  Models: `dfs.c:32`. -/
def UNVISITED : Int := -1
@[inherit_doc UNVISITED]
def VISITED : Int := -2

/-- Initialise `color` and `count`.  Models: `dfs.c:39-42`. -/
def init (size : Nat) (ia : List Nat) (s : State) : M State :=
  loop size (fun i s => do
    let color ← wr s.color i UNVISITED
    let b ← rd ia (i + 1)
    let a ← rd ia i
    let work ← wr s.work (size + i) ((b : Int) - (a : Int))
    .ok { s with color := color, work := work }) s

/-- One iteration of the inner `while`; the `Bool` says whether the loop goes on.
Models: `dfs.c:53-69`. -/
def step (size : Nat) (ia ja : List Nat) (ncolors : Nat) (s : State) : M (State × Bool) :=
  if s.sp = 0 then .ok (s, false)
  else do
    let c ← rd s.work (s.sp - 1)
    let cnt ← rdI s.work ((size : Int) + c)
    if cnt > 0 then do
      let a ← rdI ia c
      let child ← rdI ja ((a : Int) + cnt - 1)
      let work ← wrI s.work ((size : Int) + c) (cnt - 1)
      let col ← rd s.color child
      if col = UNVISITED then do
        let work ← wr work s.sp (child : Int)
        let color ← wrI s.color c VISITED
        .ok ({ color := color, work := work, sp := s.sp + 1 }, true)
      else .ok ({ s with work := work }, true)
    else do
      let color ← wrI s.color c (ncolors : Int)
      .ok ({ s with color := color, sp := s.sp - 1 }, true)

/-- One iteration of the loop over seeds.  Models: `dfs.c:45-71`. -/
def seed (fuel size : Nat) (ia ja : List Nat) (i : Nat) (p : State × Nat) : M (State × Nat) := do
  let col ← rd p.1.color i
  if col ≥ 0 then .ok p
  else do
    let work ← wr p.1.work p.1.sp (i : Int)
    let color ← wr p.1.color i VISITED
    let s ← whileFuel fuel (step size ia ja p.2) { color := color, work := work, sp := p.1.sp + 1 }
    .ok (s, p.2 + 1)

/-- `dfs(size, ia, ja, &ncolors, color, work)`; returns `(color, work, ncolors)`.
Models: `dfs.c:29-72`. -/
def dfs (fuel size : Nat) (ia ja : List Nat) (color work : List Int) : M (List Int × List Int × Nat) := do
  let s ← init size ia { color := color, work := work, sp := 0 }
  let r ← loop size (seed fuel size ia ja) (s, 0)
  .ok (r.1.color, r.1.work, r.2)

end Opm.Dfs
