import Verif.Core.Cursor
import Verif.Model.UniquePoints
/-!
# Model of `opm/core/grid/cpgpreprocess/facetopology.c`

Connections between two stacks of cells that share a pair of pillars.  A stack is described by the point numbers of its lines on the two pillars, `n` numbers on each; the
space between lines `i` and `i + 1` is cell `(i - 1)/2` if `i` is odd and a gap if `i` is even.  Pointers that are only used as `*p++` are `Cur`; the diagnostics printed
for `DEBUG` are not modelled.  Point numbers are mathematical integers.
-/

namespace Opm.Cpg
open Opm

/-- `LINE_INTERSECTION(a1, a2, b1, b2)`.  Models: `facetopology.c:184-186`. -/
def lineX (a1 a2 b1 b2 : Int) : Bool := (decide (a1 > b1) && decide (a2 < b2)) || (decide (a1 < b1) && decide (a2 > b2))

/-- The point numbers of a layer: `p, p'` are entries `i`, `i + 1` on the first pillar, `q, q'` on the second. -/
structure Layer where
  p : Int
  p' : Int
  q : Int
  q' : Int

/-- Both lines of the layer are the same.  Models: `facetopology.c:236-237`, `:247-248`. -/
def Layer.pinched (a : Layer) : Bool := decide (a.p = a.p') && decide (a.q = a.q')

/-- `faceintersection(a1, a2, b1, b2)`.  Models: `facetopology.c:188-197`. -/
def faceX (a b : Layer) : Bool :=
  decide (max a.p b.p < min a.p' b.p') || decide (max a.q b.q < min a.q' b.q') || lineX a.p a.q b.p b.q || lineX a.p' a.q' b.p' b.q'

/-- The condition for completely matching faces.  Models: `facetopology.c:263-264`. -/
def matching (a b : Layer) : Bool := (decide (a.p = b.p) && decide (a.p' = b.p')) && (decide (a.q = b.q) && decide (a.q' = b.q'))

/-- `MEANINGFUL_FACE(i, j)`.  Models: `facetopology.c:200-202`. -/
def meaningful (a b : Layer) : Bool :=
  !(decide (a.p = UniquePoints.intMin) && decide (b.p = UniquePoints.intMin)) && !(decide (a.p' = UniquePoints.intMax) && decide (b.p' = UniquePoints.intMax))

/-- `i%2 != 0 ? (i-1)/2 : -1`.  Models: `facetopology.c:268-269`, `:326-327`. -/
def cellOf (i : Nat) : Int := if i % 2 ≠ 0 then (((i - 1) / 2 : Nat) : Int) else -1

/-- `mask` of `computeFaceTopology`. -/
structure Mask where
  m0 : Int
  m1 : Int
  m2 : Int
  m3 : Int
  m4 : Int
  m5 : Int
  m6 : Int
  m7 : Int

/-- The points on the pillars.  Models: `facetopology.c:73-100`. -/
def pillarMask (a b : Layer) : Mask :=
  let m0 := if a.p' > b.p' then b.p' else a.p'
  let m2 := if a.q' > b.q' then b.q' else a.q'
  let m4 := if a.q > b.q then a.q else b.q
  let m6 := if a.p > b.p then a.p else b.p
  { m0 := m0, m1 := -1, m2 := m2, m3 := -1, m4 := if m2 = m4 then -1 else m4, m5 := -1, m6 := if m0 = m6 then -1 else m6, m7 := -1 }

/-- The intersection of the upper line of `a` with the lower line of `b`.  Models: `facetopology.c:114-126`. -/
def maskX1 (a b : Layer) (x : Int) (m : Mask) : Mask :=
  if x ≠ -1 then if a.p > b.p' then { m with m0 := -1, m6 := -1, m7 := x } else { m with m2 := -1, m4 := -1, m3 := x } else m

/-- The intersection of the lower line of `a` with the upper line of `b`.  Models: `facetopology.c:128-140`. -/
def maskX2 (a b : Layer) (x : Int) (m : Mask) : Mask :=
  if x ≠ -1 then if a.p' < b.p then { m with m0 := -1, m6 := -1, m7 := x } else { m with m2 := -1, m4 := -1, m3 := x } else m

/-- The points which `computeFaceTopology` stores.  Models: `facetopology.c:64-168`. -/
def faceTopology (a b : Layer) (x0 x1 x2 x3 : Int) : List Int :=
  let m := maskX2 a b x2 (maskX1 a b x1 { pillarMask a b with m1 := x3, m3 := -1, m5 := x0, m7 := -1 })
  [m.m7, m.m6, m.m5, m.m4, m.m3, m.m2, m.m1, m.m0].filter (fun x => decide (x ≠ -1))

/-- Local variables of `findconnections`, and the parts of `*out` that it changes: `f`, `c`, `intersectionlist`, `face_ptr`, `number_of_faces`, `number_of_nodes`, `itop`,
`ibottom` (`sw`: they have been exchanged an odd number of times), `k1`, `k2`, `j`. -/
structure Conn where
  f : Cur Int
  c : Cur Int
  x : Cur Int
  ptr : List Nat
  nf : Nat
  nn : Nat
  top : List Int
  bot : List Int
  sw : Bool
  k1 : Nat
  k2 : Nat
  j : Nat

/-- One face is added.  Models: `facetopology.c:271-283`, `:331-337`. -/
def Conn.addFace (s : Conn) (a b : Int) (nodes : List Int) : M Conn := do
  let c ← s.c.puts [a, b]
  let f ← s.f.puts nodes
  let ptr ← wr s.ptr (s.nf + 1) f.pos
  .ok { s with c := c, f := f, ptr := ptr, nf := s.nf + 1 }

/-- The points of a completely matching face.  Models: `facetopology.c:275-281`. -/
def matchNodes (a : Layer) : List Int := [a.p, a.q] ++ (if a.q' ≠ a.q then [a.q'] else []) ++ (if a.p' ≠ a.p then [a.p'] else [])

/-- `if (MEANINGFUL_FACE(i,j)) { … if (cell_a != -1 || cell_b != -1) …}`.  Models: `facetopology.c:266-289`, `:320-342`. -/
def Conn.maybeFace (s : Conn) (i : Nat) (a b : Layer) (nodes : List Int) : M Conn :=
  if meaningful a b then
    if cellOf i ≠ -1 ∨ cellOf s.j ≠ -1 then s.addFace (cellOf i) (cellOf s.j) nodes else .ok s
  else .ok s

/-- A new intersection is recorded.  Models: `facetopology.c:295-309`. -/
def Conn.newX (s : Conn) (a b : Layer) : M Conn :=
  if lineX a.p' a.q' b.p' b.q' then do
    let top ← wr s.top (s.j + 1) (s.nn : Int)
    let x ← s.x.puts [a.p', a.q', b.p', b.q']
    .ok { s with top := top, nn := s.nn + 1, x := x }
  else do
    let top ← wr s.top (s.j + 1) (-1)
    .ok { s with top := top }

/-- Faces that intersect but do not match.  Models: `facetopology.c:292-343`. -/
def Conn.nonMatching (s : Conn) (i : Nat) (a b : Layer) : M Conn := do
  let s ← s.newX a b
  let x0 ← rd s.bot s.j
  let x1 ← rd s.bot (s.j + 1)
  let x2 ← rd s.top s.j
  let x3 ← rd s.top (s.j + 1)
  s.maybeFace i a b (faceTopology a b x0 x1 x2 x3)

/-- Models: `facetopology.c:259-344`. -/
def Conn.pair (s : Conn) (i : Nat) (a b : Layer) : M Conn :=
  if faceX a b then
    if matching a b then s.maybeFace i a b (matchNodes a) else s.nonMatching i a b
  else .ok s

/-- Body of the loop over `j`.  Models: `facetopology.c:246-351`. -/
def Conn.step (i : Nat) (a b : Layer) (s : Conn) : M Conn :=
  if b.pinched then do
    let t ← rd s.top s.j
    let top ← wr s.top (s.j + 1) t
    .ok { s with top := top, j := s.j + 1 }
  else do
    let s ← s.pair i a b
    .ok { s with k1 := if b.p < a.p' then s.j else s.k1, k2 := if b.q < a.q' then s.j else s.k2, j := s.j + 1 }

/-- Entries `i`, `i + 1` of the columns that begin at `p` and `q`.  The code does not always read all of them. -/
def readLayer (plist : List Int) (p q i : Nat) : M Layer := do
  let x ← rd plist (p + i)
  let x' ← rd plist (p + (i + 1))
  let y ← rd plist (q + i)
  let y' ← rd plist (q + (i + 1))
  .ok ⟨x, x', y, y'⟩

/-- The loop over `j`; at most `n` tests of its condition.  Models: `facetopology.c:242-351`. -/
def Conn.row (plist : List Int) (pb qb n i : Nat) (a : Layer) (s : Conn) : M Conn :=
  whileFuel n (fun s => do
    if s.j < n - 1 then do
      let b ← readLayer plist pb qb s.j
      if b.p < a.p' ∨ b.q < a.q' then do
        let s ← s.step i a b
        .ok (s, true)
      else .ok (s, false)
    else .ok (s, false)) s

/-- Body of the loop over `i`.  Models: `facetopology.c:233-364`. -/
def Conn.line (plist : List Int) (pa qa pb qb n i : Nat) (s : Conn) : M Conn := do
  let a ← readLayer plist pa qa i
  if a.pinched then .ok s
  else do
    let s ← s.row plist pb qb n i a
    let top ← loop n (fun j (t : List Int) => wr t j (-1)) s.bot
    .ok { s with top := top, bot := s.top, sw := !s.sw, j := min s.k1 s.k2 }

/-- `findconnections(n, pts, intersectionlist, work, out)`; `pa, qa, pb, qb` are the positions of `pts[0..3]`; `f`, `c`, `x` are the initial pointers and `work` is
given by its two halves.  Models: `facetopology.c:206-365`. -/
def findConnections (plist : List Int) (pa qa pb qb n : Nat) (f c x : Cur Int) (ptr : List Nat) (nf nn : Nat) (w0 w1 : List Int) : M Conn :=
  loop (n - 1) (Conn.line plist pa qa pb qb n) { f := f, c := c, x := x, ptr := ptr, nf := nf, nn := nn, top := w0, bot := w1, sw := false, k1 := 0, k2 := 0, j := 0 }

end Opm.Cpg
