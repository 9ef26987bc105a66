import Verif.Core.Mem
/-!
# Model of `opm/core/transport/reorder/tarjan.c`

Strong components by Tarjan's algorithm, without recursion: the ends of the output arrays
`vert` and `comp` double as stacks.
-/

namespace Opm.Tarjan

/-- `enum {DONE=-2, REMAINING=-1}`, tarjan.c:76. -/
def DONE : Int := -2
/-- tarjan.c:76. -/
def REMAINING : Int := -1

/-- Local variables of `tarjan` and the arrays it writes, tarjan.c:77–93.

`stack`, `cstack` are the offsets of the pointers of the same name from the base of `comp`,
`vert`; `compp` is the offset of the advancing pointer `comp`.
Simplifications: the three pieces `time`, `link`, `status` of `work` are separate buffers of `nv`
elements (an access past a piece is an error even when it would stay inside `work`); array elements
that are vertices, positions or times are `Nat`; `int` does not overflow. -/
structure St where
  vert : List Nat
  comp : List Nat
  time : List Nat
  link : List Nat
  status : List Int
  stack : Int
  cstack : Int
  compp : Nat
  t : Nat
  pos : Nat
  ncomp : Nat
  seed : Nat
  deriving DecidableEq

/-- The `do … while (v != c)` loop that pops a component, tarjan.c:149–160. -/
def popComp (fuel nv c : Nat) (s : St) : M St :=
  whileFuel fuel (fun s => do
    check (s.cstack != (nv : Int) - 1)
    let v ← rdI s.vert (s.cstack + 1)
    let status ← wr s.status v DONE
    let vert ← wr s.vert s.pos v
    .ok ({ s with cstack := s.cstack + 1, status, vert, pos := s.pos + 1 }, v != c)) s

/-- `if (status[c] == REMAINING) {…}`, tarjan.c:130–138. -/
def visit (ia : List Nat) (c : Nat) (s : St) : M St := do
  let st ← rd s.status c
  if st == REMAINING then
    let b ← rd ia (c + 1)
    let a ← rd ia c
    let status ← wr s.status c ((b : Int) - a)
    let link ← wr s.link c s.t
    let time ← wr s.time c s.t
    let vert ← wrI s.vert s.cstack c
    .ok { s with status, link, time, t := s.t + 1, vert, cstack := s.cstack - 1 }
  else .ok s

/-- `if (link[c] == time[c]) {…}`, tarjan.c:147–165. -/
def closeComp (fuel nv c : Nat) (s : St) : M St := do
  let l ← rd s.link c
  let tm ← rd s.time c
  if l == tm then
    let s ← popComp fuel nv c s
    let comp ← wr s.comp s.compp s.pos
    .ok { s with comp, compp := s.compp + 1, ncomp := s.ncomp + 1 }
  else .ok s

/-- The branch for a vertex whose descendants are all processed, tarjan.c:143–174. -/
def finish (fuel nv c : Nat) (s : St) : M St := do
  let s ← closeComp fuel nv c s
  let s := { s with stack := s.stack + 1 }
  if s.stack != (nv : Int) then do
    let p ← rdI s.comp (s.stack + 1)
    let lp ← rd s.link p
    let lc ← rd s.link c
    let link ← wr s.link p (min lp lc)
    .ok { s with link }
  else .ok s

/-- The branch that looks at the next descendant, tarjan.c:179–203. -/
def child (ia ja : List Nat) (c : Nat) (s : St) : M St := do
  let st ← rd s.status c
  check (decide (st > 0))
  let a ← rd ia c
  let w ← rdI ja ((a : Int) + st - 1)
  let status ← wr s.status c (st - 1)
  let s := { s with status }
  let sw ← rd s.status w
  if sw == REMAINING then
    let comp ← wrI s.comp s.stack w
    .ok { s with comp, stack := s.stack - 1 }
  else if sw ≥ 0 then
    let lc ← rd s.link c
    let tw ← rd s.time w
    let link ← wr s.link c (min lc tw)
    .ok { s with link }
  else do
    check (sw == DONE)
    .ok s

/-- `if (status[c] == 0) {…} else {…}`, tarjan.c:142–203. -/
def advance (fuel nv : Nat) (ia ja : List Nat) (c : Nat) (s : St) : M St := do
  let st ← rd s.status c
  if st == 0 then finish fuel nv c s else child ia ja c s

/-- One evaluation of `while (stack != bottom) {…}`, tarjan.c:122–204. -/
def innerStep (fuel nv : Nat) (ia ja : List Nat) (s : St) : M (St × Bool) := do
  if s.stack != (nv : Int) then
    let c ← rdI s.comp (s.stack + 1)
    let st ← rd s.status c
    check (st != DONE)
    check (decide (st ≥ -2))
    let s ← visit ia c s
    let s ← advance fuel nv ia ja c s
    .ok (s, true)
  else .ok (s, false)

/-- One evaluation of `while (seed < nv) {…}`, tarjan.c:109–206. -/
def outerStep (fuel nv : Nat) (ia ja : List Nat) (s : St) : M (St × Bool) := do
  if s.seed < nv then
    let st ← rd s.status s.seed
    if st == DONE then .ok ({ s with seed := s.seed + 1 }, true)
    else do
      let comp ← wrI s.comp s.stack s.seed
      let s := { s with comp, stack := s.stack - 1, t := 0 }
      let s ← whileFuel fuel (innerStep fuel nv ia ja) s
      check (s.cstack == (nv : Int) - 1)
      .ok (s, true)
  else .ok (s, false)

/-- The output arrays and the component count. -/
structure Res where
  vert : List Nat
  comp : List Nat
  ncomp : Nat
  deriving DecidableEq, Repr

/-- `clear_vector(n, v)`, tarjan.c:34–40. -/
def clearVector {α : Type _} [OfNat α 0] (n : Nat) (v : List α) : M (List α) :=
  loop n (fun i v => wr v i 0) v

/-- The initialisation, tarjan.c:80–108.  The three pieces of `work` are cleared as one block and
then cut up. -/
def init (nv : Nat) (vert comp work : List Nat) : M St := do
  let work ← clearVector (3 * nv) work
  let vert ← clearVector nv vert
  let comp ← clearVector (nv + 1) comp
  let status ← loop nv (fun i v => wr v i REMAINING)
    (((work.drop (2 * nv)).take nv).map Int.ofNat)
  let comp ← wr comp 0 0
  .ok { vert, comp, time := work.take nv, link := (work.drop nv).take nv, status
        stack := nv, cstack := (nv : Int) - 1, compp := 1, t := 0, pos := 0, ncomp := 0, seed := 0 }

/-- `tarjan(nv, ia, ja, vert, comp, &ncomp, work)`, tarjan.c:69–207.  `fuel` bounds each loop. -/
def tarjan (fuel nv : Nat) (ia ja vert comp work : List Nat) : M Res := do
  let s ← init nv vert comp work
  let s ← whileFuel fuel (outerStep fuel nv ia ja) s
  .ok { vert := s.vert, comp := s.comp, ncomp := s.ncomp }

end Opm.Tarjan
