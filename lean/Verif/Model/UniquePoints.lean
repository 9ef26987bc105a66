import Verif.Core.Buf
import Mathlib.Data.List.Sort
/-!
# Model of `opm/core/grid/cpgpreprocess/uniquepoints.c`

The points on the pillars of a corner-point grid.  Depths are exact rationals.  `malloc` returns buffers with arbitrary contents (`jr`, `jn`); that it may fail is not
modelled, nor is `free`.  The memory that is not released if the second loop fails is not modelled.  `ptrdiff_t`/`size_t` conversions do not overflow.
-/

namespace Opm.UniquePoints
open Opm

/-- The part of `struct grdecl` used here.  Models: `preprocess.h:56-62`. -/
structure Grdecl where
  nx : Nat
  ny : Nat
  nz : Nat
  coord : List Rat
  zcorn : List Rat
  actnum : List Int

/-- `qsort` of the elements `off, …, ptr - 1`.  Equal numbers cannot be told apart, so any sorting procedure gives the same array.  Models: `uniquepoints.c:52-62`, `:78`. -/
def sortRange (buf : List Rat) (off ptr : Nat) : List Rat :=
  buf.take off ++ ((buf.drop off).take (ptr - off)).insertionSort (· ≤ ·) ++ buf.drop ptr

/-- The loops of `createSortedList`: depths of the active corners in four columns, `z` and `a` are the positions at which the columns begin.
Returns the buffer and the position behind the last value.  Models: `uniquepoints.c:69-76`. -/
def collect (zcorn : List Rat) (actnum : List Int) (n : Nat) (z a : List Int) (buf : List Rat) (off : Nat) : M (List Rat × Nat) :=
  loop n (fun i s => loop 4 (fun j s => do
    let aj ← rd a j
    let act ← rdI actnum (aj + (i / 2 : Nat))
    if act ≠ 0 then do
      let zj ← rd z j
      let v ← rdI zcorn (zj + i)
      let b ← wr s.1 s.2 v
      .ok (b, s.2 + 1)
    else .ok s) s) (buf, off)

/-- `createSortedList(list, n, 4, z, a)` with `list` at position `off` of the buffer.  Models: `uniquepoints.c:66-80`. -/
def createSortedList (zcorn : List Rat) (actnum : List Int) (n : Nat) (z a : List Int) (buf : List Rat) (off : Nat) : M (List Rat × Nat) := do
  let s ← collect zcorn actnum n z a buf off
  .ok (sortRange s.1 off s.2, s.2 - off)

/-- `uniquify(n, list, tolerance)` with `list` at position `off` of the buffer.  Models: `uniquepoints.c:86-120`. -/
def uniquify (n : Nat) (tol : Rat) (buf : List Rat) (off : Nat) : M (List Rat × Nat) := do
  check (¬ tol < 0)
  if n < 1 then .ok (buf, 0)
  else do
    let v ← rd buf off
    let s ← forRange 1 n (fun i (s : List Rat × Nat × Rat) => do
      let x ← rd s.1 (off + i)
      if s.2.2 + tol < x then do
        let b ← wr s.1 (off + s.2.1) x
        .ok (b, s.2.1 + 1, x)
      else .ok s) (buf, 1, v)
    let last ← rd s.1 (off + (n - 1))
    let b ← wr s.1 (off + (s.2.1 - 1)) last
    .ok (b, s.2.1)

/-- `while ((k < end) && (zlist[k] + tolerance < z[i])) k++;`.  The fuel is `end - k`: when it is used up, `k` has reached `end`.  Models: `uniquepoints.c:158-160`. -/
def advance (zlist : List Rat) (tol z : Rat) (e : Nat) : Nat → Nat → M Nat
  | 0, k => .ok k
  | fuel + 1, k => do
    if k < e then do
      let v ← rd zlist k
      if v + tol < z then advance zlist tol z e fuel (k + 1) else .ok k
    else .ok k

/-- State of `assignPointNumbers`: current point, position in `plist`, `plist`. -/
structure Assign where
  k : Nat
  p : Nat
  plist : List Int

/-- The padding `INT_MIN`. -/
def intMin : Int := -2147483648

/-- The padding `INT_MAX`. -/
def intMax : Int := 2147483647

/-- Body of the loop of `assignPointNumbers`; `none` if the function has returned 0.  Models: `uniquepoints.c:147-171`. -/
def assignStep (begZ : Nat) (e : Nat) (zlist : List Rat) (zcorn : List Rat) (begA : Nat) (actnum : List Int) (tol : Rat) (i : Nat) :
    Option Assign → M (Option Assign)
  | none => .ok none
  | some s => do
    let act ← rd actnum (begA + i / 2)
    if act = 0 then do
      let x ← rdI s.plist ((s.p : Int) - 1)
      let pl ← wr s.plist s.p x
      .ok (some ⟨s.k, s.p + 1, pl⟩)
    else do
      let z ← rd zcorn (begZ + i)
      let k ← advance zlist tol z e (e - s.k) s.k
      if k = e then .ok none
      else do
        let v ← rd zlist k
        if v + tol < z then .ok none
        else do
          let pl ← wr s.plist s.p (k : Int)
          .ok (some ⟨k, s.p + 1, pl⟩)

/-- The last statement of `assignPointNumbers`.  Models: `uniquepoints.c:172-175`. -/
def assignEnd : Option Assign → M (Option Assign)
  | none => .ok none
  | some s => do
    let pl ← wr s.plist s.p intMax
    .ok (some ⟨s.k, s.p + 1, pl⟩)

/-- `assignPointNumbers(begin, end, zlist, n, zcorn + begZ, actnum + begA, plist + p, tolerance)`.  Models: `uniquepoints.c:125-176`. -/
def assignPointNumbers (b e : Nat) (zlist : List Rat) (n : Nat) (zcorn : List Rat) (begZ : Nat) (actnum : List Int) (begA : Nat)
    (plist : List Int) (p : Nat) (tol : Rat) : M (Option Assign) := do
  let pl ← wr plist p intMin
  let s ← loop n (assignStep begZ e zlist zcorn begA actnum tol) (some ⟨b, p + 1, pl⟩)
  assignEnd s

/-- `vector_positions(dims, i, j, start)`.  Models: `uniquepoints.c:180-198`. -/
def vectorPositions (d0 d1 d2 i j : Nat) : List Int :=
  let im : Int := max 1 (i : Int) - 1
  let jm : Int := max 1 (j : Int) - 1
  let ip : Int := min (d0 : Int) (i + 1) - 1
  let jp : Int := min (d1 : Int) (j + 1) - 1
  [d2 * (im + d0 * jm), d2 * (im + d0 * jp), d2 * (ip + d0 * jm), d2 * (ip + d0 * jp)]

/-- `interpolate_pillar(coord, pt)`: `cp` and `pp` are the positions of the pillar and of the point.  Models: `uniquepoints.c:241-262`. -/
def interpolatePillar (coord : List Rat) (cp : Nat) (nodes : List Rat) (pp : Nat) : M (List Rat) := do
  let c5 ← rd coord (cp + 5)
  let c2 ← rd coord (cp + 2)
  let z ← rd nodes (pp + 2)
  let a ← if c5 - c2 ≠ 0 then fdiv (z - c2) (c5 - c2) else .ok 0
  let c0 ← rd coord cp
  let c3 ← rd coord (cp + 3)
  let nodes ← wr nodes pp ((1 - a) * c0 + a * c3)
  let c1 ← rd coord (cp + 1)
  let c4 ← rd coord (cp + 4)
  wr nodes (pp + 1) ((1 - a) * c1 + a * c4)

/-- State of the loop over the pillars: `zlist`, `zout - zlist`, `zptr`, `pos`, `node_coordinates`, position of `pt`, position of `coord`. -/
structure Pillars where
  zlist : List Rat
  zout : Nat
  zptr : List Nat
  pos : Nat
  nodes : List Rat
  pt : Nat
  coord : Nat

/-- The loop over the points of one pillar.  Models: `uniquepoints.c:330-335`. -/
def pillarPoints (g : Grdecl) (zlist : List Rat) (zout len coord : Nat) (nodes : List Rat) (pt : Nat) : M (List Rat × Nat) :=
  loop len (fun k (r : List Rat × Nat) => do
    let z ← rd zlist (zout + k)
    let nodes ← wr r.1 (r.2 + 2) z
    let nodes ← interpolatePillar g.coord coord nodes r.2
    .ok (nodes, r.2 + 3)) (nodes, pt)

/-- One pillar.  Models: `uniquepoints.c:323-342`. -/
def pillar (g : Grdecl) (tol : Rat) (i j : Nat) (s : Pillars) : M Pillars := do
  let a := vectorPositions g.nx g.ny g.nz i j
  let z := vectorPositions (2 * g.nx) (2 * g.ny) (2 * g.nz) (2 * i) (2 * j)
  let l ← createSortedList g.zcorn g.actnum (2 * g.nz) z a s.zlist s.zout
  let u ← uniquify l.2 tol l.1 s.zout
  let r ← pillarPoints g u.1 s.zout u.2 s.coord s.nodes s.pt
  let zptr ← wr s.zptr s.pos (s.zout + u.2)
  .ok { zlist := u.1, zout := s.zout + u.2, zptr := zptr, pos := s.pos + 1, nodes := r.1, pt := r.2, coord := s.coord + 6 }

/-- The loops over the pillars, and what precedes them.  Models: `uniquepoints.c:277-344`.  `out->dimensions` equals `g->dims`. -/
def pillars (g : Grdecl) (tol : Rat) (jr : Nat → Rat) (jn : Nat → Nat) : M Pillars := do
  let zptr ← wr (realloc jn [] ((g.nx + 1) * (g.ny + 1) + 1)) 0 0
  loop (g.ny + 1) (fun j s => loop (g.nx + 1) (fun i s => pillar g tol i j s) s)
    { zlist := realloc jr [] (8 * (g.nx + 1) * (g.ny + 1) * g.nz), zout := 0, zptr := zptr, pos := 1,
      nodes := realloc jr [] (3 * 8 * (g.nx * g.ny * g.nz)), pt := 0, coord := 0 }

/-- One set of corner depths in the second part; `none` if the function has returned 0.  Models: `uniquepoints.c:352-372`. -/
def column (g : Grdecl) (tol : Rat) (zlist : List Rat) (zptr : List Nat) (i j : Nat) : Option (List Int × Nat) → M (Option (List Int × Nat))
  | none => .ok none
  | some s => do
    let pix := (i + 1) / 2 + (g.nx + 1) * ((j + 1) / 2)
    let cix := g.nz * (i / 2 + j / 2 * g.nx)
    let zix := 2 * g.nz * (i + 2 * g.nx * j)
    let b ← rd zptr pix
    let e ← rd zptr (pix + 1)
    let r ← assignPointNumbers b e zlist (2 * g.nz) g.zcorn zix g.actnum cix s.1 s.2 tol
    .ok (r.map (fun r => (r.plist, s.2 + (2 + 2 * g.nz))))

/-- What `finduniquepoints` returns through its arguments. -/
structure Points where
  plist : List Int
  numNodes : Nat
  nodes : List Rat

/-- `finduniquepoints(g, plist, tolerance, out)`; `none` if it returns 0.  Models: `uniquepoints.c:268-379`. -/
def findUniquePoints (g : Grdecl) (plist : List Int) (tol : Rat) (jr : Nat → Rat) (jn : Nat → Nat) : M (Option Points) := do
  let s ← pillars g tol jr jn
  let n ← rd s.zptr (s.pos - 1)
  let r ← loop (2 * g.ny) (fun j r => loop (2 * g.nx) (fun i r => column g tol s.zlist s.zptr i j r) r) (some (plist, 0))
  .ok (r.map (fun r => { plist := r.1, numNodes := n, nodes := s.nodes }))

end Opm.UniquePoints
