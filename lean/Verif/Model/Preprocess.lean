import Verif.Model.FaceTopology
/-!
# Model of `opm/core/grid/cpgpreprocess/preprocess.c`

Depths and coordinates are exact rationals, `int`s are mathematical integers.  Allocation succeeds and gives buffers with arbitrary contents (`J`); `free` and the messages
printed on `stderr` are not modelled.
-/

namespace Opm.Cpg
open Opm UniquePoints

/-- Arbitrary contents of freshly allocated memory. -/
structure Junk where
  i : Nat → Int
  n : Nat → Nat
  r : Nat → Rat

/-- The parts of `struct processed_grid` that describe faces, and `*intersections`.  `tag`: 0, 1, 2 for `LEFT`, `BACK`, `TOP`.  Models: `preprocess.h:79-108`. -/
structure PGrid where
  m : Nat
  n : Nat
  nbr : List Int
  nodes : List Int
  ptr : List Nat
  tag : List Nat
  nf : Nat
  nn : Nat
  np : Nat
  its : List Int

/-- `linearindex(dims, i, j, k)`.  Models: `preprocess.c:68-81`. -/
def linearindex (nx ny nz : Nat) (i j k : Int) : M Int := do
  check (0 ≤ i)
  check (0 ≤ j)
  check (0 ≤ k)
  check (i < nx)
  check (j < ny)
  check (k < nz)
  .ok (i + nx * (j + ny * k))

/-- `compute_cell_index(dims, i, j, neighbors + off, len)`; `cnt = len/2` rounded up is the number of iterations.  Models: `preprocess.c:113-134`. -/
def computeCellIndex (nx ny nz : Nat) (i j : Int) (nbr : List Int) (off cnt : Nat) : M (List Int) :=
  if (i < 0 ∨ i ≥ nx) ∨ (j < 0 ∨ j ≥ ny) then
    loop cnt (fun k (b : List Int) => wr b (off + 2 * k) (-1)) nbr
  else
    loop cnt (fun k (b : List Int) => do
      let v ← rd b (off + 2 * k)
      if v ≠ -1 then do
        let l ← linearindex nx ny nz i j v
        wr b (off + 2 * k) l
      else .ok b) nbr

/-- `checkmemory(nz, out, intersections)`.  Models: `preprocess.c:139-188`. -/
def checkmemory (J : Junk) (nz : Nat) (g : PGrid) : M PGrid := do
  let r := (2 * nz + 2) * (2 * nz + 2)
  let p ← rd g.ptr g.nf
  let m := if g.nf + r > g.m then g.m + max (g.m / 2) (2 * r) else g.m
  let n := if p + 6 * r > g.n then g.n + max (g.n / 2) (12 * r) else g.n
  let g := if m = g.m then g else
    { g with its := realloc J.i g.its (4 * m), nbr := realloc J.i g.nbr (2 * m), ptr := realloc J.n g.ptr (m + 1), tag := realloc J.n g.tag m, m := m }
  .ok (if n ≠ g.n then { g with nodes := realloc J.i g.nodes n, n := n } else g)

/-- The pointers for one pair of pillars: `igetvectors`, and the rotation for direction 1.  Models: `preprocess.c:88-101`, `:228-241`. -/
def cornerpts (dir nx ny nz i j : Nat) : List Int :=
  let v := vectorPositions (2 * nx) (2 * ny) (2 * (nz + 1)) (2 * i + dir) (2 * j + (1 - dir))
  if dir = 1 then [v.getD 2 0, v.getD 0 0, v.getD 3 0, v.getD 1 0] else v

/-- The tags are set.  Models: `preprocess.c:268-271`. -/
def setTags (dir start nf : Nat) (tag : List Nat) : M (List Nat) := forRange start nf (fun f (t : List Nat) => wr t f dir) tag

/-- One pair of pillars in `process_vertical_faces`; `w0`, `w1` are the halves of `work`.  Models: `preprocess.c:220-272`. -/
def verticalPair (J : Junk) (plist : List Int) (dir nx ny nz i j : Nat) (s : PGrid × List Int × List Int) : M (PGrid × List Int × List Int) := do
  let g ← checkmemory J nz s.1
  let v := cornerpts dir nx ny nz i j
  let p ← rd g.ptr g.nf
  let r ← findConnections plist (v.getD 0 0).toNat (v.getD 1 0).toNat (v.getD 2 0).toNat (v.getD 3 0).toNat (2 * nz + 2) ⟨g.nodes, p⟩ ⟨g.nbr, 2 * g.nf⟩
    ⟨g.its, 4 * (g.nn - g.np)⟩ g.ptr g.nf g.nn s.2.1 s.2.2
  let nbr ← computeCellIndex nx ny nz ((i : Int) - 1 + dir) ((j : Int) - dir) r.c.buf (2 * g.nf) (r.nf - g.nf)
  let nbr ← computeCellIndex nx ny nz i j nbr (2 * g.nf + 1) (r.nf - g.nf)
  let tag ← setTags dir g.nf r.nf g.tag
  let g := { g with nbr := nbr, nodes := r.f.buf, ptr := r.ptr, tag := tag, nf := r.nf, nn := r.nn, its := r.x.buf }
  .ok (g, if r.sw then (r.bot, r.top) else (r.top, r.bot))

/-- `process_vertical_faces(direction, intersections, plist, work, out)`.  Models: `preprocess.c:199-275`. -/
def verticalFaces (J : Junk) (plist : List Int) (dir nx ny nz : Nat) (s : PGrid × List Int × List Int) : M (PGrid × List Int × List Int) :=
  loop (ny + dir) (fun j s => loop (nx + (1 - dir)) (fun i s => verticalPair J plist dir nx ny nz i j s) s) s

/-- Local variables of `process_horizontal_faces` and the parts of `*out` that it changes. -/
structure Horiz where
  f : Cur Int
  c : Cur Int
  ptr : List Nat
  tag : List Nat
  nf : Nat
  cell : List Int
  cellno : Nat
  prev : Int

/-- A horizontal face is added.  Models: `preprocess.c:357-367`, `:378-387`. -/
def Horiz.addFace (s : Horiz) (nodes : List Int) (a b : Int) : M Horiz := do
  let f ← s.f.puts nodes
  let tag ← wr s.tag s.nf 2
  let ptr ← wr s.ptr (s.nf + 1) f.pos
  let c ← s.c.puts [a, b]
  .ok { s with f := f, tag := tag, ptr := ptr, nf := s.nf + 1, c := c, prev := b }

/-- Entries `k` and `k + 1` of the four columns. -/
def readCorners (plist : List Int) (v : List Int) (k : Nat) : M (List Int) := do
  let c0 ← rd plist ((v.getD 0 0).toNat + k)
  let c1 ← rd plist ((v.getD 1 0).toNat + k)
  let c2 ← rd plist ((v.getD 2 0).toNat + k)
  let c3 ← rd plist ((v.getD 3 0).toNat + k)
  .ok [c0, c1, c2, c3]

/-- Body of the loop over `k`.  Models: `preprocess.c:341-392`. -/
def Horiz.step (plist v : List Int) (nx ny nz i j k : Nat) (s : Horiz) : M Horiz := do
  let c ← readCorners plist v k
  let c' ← readCorners plist v (k + 1)
  if c = c' then
    if k % 2 ≠ 0 then do
      let idx ← linearindex nx ny nz i j (((k - 1) / 2 : Nat) : Int)
      let cell ← wrI s.cell idx (-1)
      .ok { s with cell := cell }
    else .ok s
  else
    if k % 2 ≠ 0 then do
      let this ← linearindex nx ny nz i j (((k - 1) / 2 : Nat) : Int)
      let s ← s.addFace [c.getD 0 0, c.getD 2 0, c.getD 3 0, c.getD 1 0] s.prev this
      let cell ← wrI s.cell this (s.cellno : Int)
      .ok { s with cell := cell, cellno := s.cellno + 1 }
    else
      if s.prev ≠ -1 then s.addFace [c.getD 0 0, c.getD 2 0, c.getD 3 0, c.getD 1 0] s.prev (-1) else .ok s

/-- One stack of cells.  Models: `preprocess.c:321-395`. -/
def horizontalStack (J : Junk) (plist : List Int) (nx ny nz i j : Nat) (s : PGrid × List Int × Nat) : M (PGrid × List Int × Nat) := do
  let g ← checkmemory J nz s.1
  let p ← rd g.ptr g.nf
  let v := vectorPositions (2 * nx) (2 * ny) (2 + 2 * nz) (2 * i + 1) (2 * j + 1)
  let r ← forRange 1 (nz * 2 + 1) (Horiz.step plist v nx ny nz i j)
    { f := ⟨g.nodes, p⟩, c := ⟨g.nbr, 2 * g.nf⟩, ptr := g.ptr, tag := g.tag, nf := g.nf, cell := s.2.1, cellno := s.2.2, prev := -1 }
  .ok ({ g with nbr := r.c.buf, nodes := r.f.buf, ptr := r.ptr, tag := r.tag, nf := r.nf }, r.cell, r.cellno)

/-- `process_horizontal_faces(intersections, plist, out)`: the grid, `local_cell_index` and `number_of_cells`.  Models: `preprocess.c:290-399`. -/
def horizontalFaces (J : Junk) (plist : List Int) (nx ny nz : Nat) (s : PGrid × List Int) : M (PGrid × List Int × Nat) :=
  loop ny (fun j s => loop nx (fun i s => horizontalStack J plist nx ny nz i j s) s) (s.1, s.2, 0)

/-- `approximate_intersection_pt(L, c, pt)`: coordinates of the point.  Models: `preprocess.c:412-465`. -/
def intersectionPt (L : Nat → M Int) (c : List Rat) : M (List Rat) := do
  let l0 ← L 0
  let l1 ← L 1
  let l2 ← L 2
  let l3 ← L 3
  check (l0 ≠ l2)
  check (l1 ≠ l3)
  let z0 ← rdI c (3 * l0 + 2)
  let z1 ← rdI c (3 * l1 + 2)
  let z2 ← rdI c (3 * l2 + 2)
  let z3 ← rdI c (3 * l3 + 2)
  let a ← if (z1 - z0) - (z3 - z2) ≠ 0 then fdiv (z2 - z0) ((z1 - z0) - (z3 - z2)) else .ok 0
  let z := z0 * (1 - a) + z1 * a
  let b1 ← fdiv (z2 - z) (z2 - z0)
  let b2 ← fdiv (z - z0) (z2 - z0)
  let x0 ← rdI c (3 * l0)
  let x2 ← rdI c (3 * l2)
  let y0 ← rdI c (3 * l0 + 1)
  let y2 ← rdI c (3 * l2 + 1)
  let b1' ← fdiv (z - z3) (z1 - z3)
  let b2' ← fdiv (z1 - z) (z1 - z3)
  let x1 ← rdI c (3 * l1)
  let x3 ← rdI c (3 * l3)
  let y1 ← rdI c (3 * l1 + 1)
  let y3 ← rdI c (3 * l3 + 1)
  .ok [(x0 * b1 + x2 * b2) * (1 - a) + (x1 * b1' + x3 * b2') * a, (y0 * b1 + y2 * b2) * (1 - a) + (y1 * b1' + y3 * b2') * a, z]

/-- `compute_intersection_coordinates(intersections, out)`.  Models: `preprocess.c:469-500`. -/
def intersectionCoordinates (J : Junk) (its : List Int) (np nn : Nat) (coords : List Rat) : M (List Rat) := do
  let r ← loop (nn - np) (fun k (p : Cur Rat) => do
    let pt ← intersectionPt (fun t => rd its (4 * k + t)) p.buf
    p.puts pt) ⟨realloc J.r coords (3 * nn), 3 * np⟩
  .ok r.buf

/-- `copy_and_permute_actnum(nx, ny, nz, in, out)`.  Models: `preprocess.c:503-535`. -/
def permuteActnum (nx ny nz : Nat) (inp : Option (List Int)) (out : List Int) : M (List Int) :=
  match inp with
  | some a => do
    let r ← loop ny (fun j p => loop nx (fun i p => loop nz (fun k (p : Cur Int) => do
      let v ← rd a (i + nx * (j + ny * k))
      p.put v) p) p) ⟨out, 0⟩
    .ok r.buf
  | none => loop (nx * ny * nz) (fun i (o : List Int) => wr o i 1) out

/-- `copy_and_permute_zcorn(nx, ny, nz, in, sign, out)`.  Models: `preprocess.c:538-560`. -/
def permuteZcorn (nx ny nz : Nat) (inp : List Rat) (sign : Int) (out : List Rat) : M (List Rat) := do
  let r ← loop (2 * ny) (fun j p => loop (2 * nx) (fun i p => loop (2 * nz) (fun k (p : Cur Rat) => do
    let v ← rd inp (i + 2 * nx * (j + 2 * ny * k))
    p.put (sign * v)) p) p) ⟨out, 0⟩
  .ok r.buf

/-- Both cells are active.  Models: `preprocess.c:599-600`. -/
def bothActive (actnum : Option (List Int)) (c1 c2 : Nat) : M Bool :=
  match actnum with
  | none => .ok true
  | some a => do
    let x ← rd a c1
    if x ≠ 0 then do
      let y ← rd a c2
      .ok (decide (y ≠ 0))
    else .ok false

/-- The three loops for one sign; `true` if `*error` is set to 1.  After `goto end` nothing more is done.  Models: `preprocess.c:584-611`. -/
def zcornError (nx ny nz : Nat) (actnum : Option (List Int)) (zcorn : List Rat) (sign : Int) : M Bool :=
  loop (2 * ny) (fun j e => loop (2 * nx) (fun i e => loop (2 * nz - 1) (fun k (e : Bool) =>
    if e then .ok true
    else do
      let z1 ← rd zcorn (i + 2 * nx * (j + 2 * ny * k))
      let z2 ← rd zcorn (i + 2 * nx * (j + 2 * ny * (k + 1)))
      let c1 := i / 2 + nx * (j / 2 + ny * (k / 2))
      let c2 := i / 2 + nx * (j / 2 + ny * ((k + 1) / 2))
      check (c1 < nx * ny * nz)
      check (c2 < nx * ny * nz)
      let act ← bothActive actnum c1 c2
      .ok (act && decide ((sign : Rat) * z2 < sign * z1))) e) e) false

/-- `get_zcorn_sign(nx, ny, nz, actnum, zcorn, &error)`: the returned sign and `error`.  The loop makes at most two rounds.  Models: `preprocess.c:563-622`. -/
def zcornSign (nx ny nz : Nat) (actnum : Option (List Int)) (zcorn : List Rat) : M (Int × Bool) :=
  whileFuel 3 (fun (s : Int × Bool) =>
    if s.1 > -2 then do
      let e ← zcornError nx ny nz actnum zcorn s.1
      if e then .ok ((s.1 - 2, true), true) else .ok ((s.1, false), false)
    else .ok (s, false)) (1, false)

/-- `ind2sub(nx, ny, nz, c, &i, &j, &k)`.  Models: `preprocess.c:625-640`. -/
def ind2sub (nx ny nz c : Nat) : M (Nat × Nat × Nat) := do
  check (c < nx * ny * nz)
  .ok (c % nx, c / nx % ny, c / nx / ny)

/-- `vert_size(in, c, off)`.  Models: `preprocess.c:644-669`. -/
def vertSize (nx ny nz : Nat) (zcorn : List Rat) (off : List Nat) (c : Nat) : M Rat := do
  let (i, j, k) ← ind2sub nx ny nz c
  let start := 2 * i + 2 * nx * (2 * j + 2 * ny * (2 * k))
  loop 4 (fun t (dz : Rat) =>
    if dz = 0 then do
      let z1 ← rd zcorn (start + off.getD (t + 4) 0)
      let z0 ← rd zcorn (start + off.getD t 0)
      .ok (z1 - z0)
    else .ok dz) 0

/-- Offsets of the corners of a cell.  Models: `preprocess.c:687-694`. -/
def cornerOffsets (nx ny : Nat) : List Nat :=
  [0, 1, 2 * nx, 2 * nx + 1, 2 * nx * (2 * ny), 2 * nx * (2 * ny) + 1, 2 * nx * (2 * ny) + 2 * nx, 2 * nx * (2 * ny) + 2 * nx + 1]

/-- `is_lefthanded(in)`.  The `do` loop runs at most once for each cell (once if there are none).  Models: `preprocess.c:674-729`. -/
def isLefthanded (nx ny nz : Nat) (actnum : Option (List Int)) (coord zcorn : List Rat) : M Bool := do
  let imax := nx * 6
  let jmax := (nx + 1) * ny * 6
  let xi ← rd coord imax
  let x0 ← rd coord 0
  let yi ← rd coord (imax + 1)
  let y0 ← rd coord 1
  let xj ← rd coord jmax
  let yj ← rd coord (jmax + 1)
  let s ← whileFuel (nx * ny * nz + 1) (fun (s : Nat × Rat × Bool) => do
    let active ← bothActive actnum s.1 s.1
    let dz ← if active then vertSize nx ny nz zcorn (cornerOffsets nx ny) s.1 else .ok s.2.1
    let searching := !(active && decide (dz ≠ 0))
    .ok ((s.1 + 1, dz, searching), searching && decide (s.1 + 1 < nx * ny * nz))) (0, 0, true)
  check (!s.2.2)
  let triple := s.2.1 * ((xi - x0) * (yj - y0) - (xj - x0) * (yi - y0))
  check (triple ≠ 0)
  .ok (decide (triple < 0))

/-- The elements `a, …, b - 1` of a list in reverse order: `while (i < j)` swaps ends.  At most `n` swaps.  Models: `preprocess.c:745-752`. -/
def reverseRange : Nat → List Int → Nat → Nat → M (List Int)
  | 0, l, _, _ => .ok l
  | n + 1, l, i, j =>
    if i < j then do
      let x ← rd l i
      let y ← rd l j
      let l ← wr l i y
      let l ← wr l j x
      reverseRange n l (i + 1) (j - 1)
    else .ok l

/-- `reverse_face_nodes(out)`.  Models: `preprocess.c:734-755`. -/
def reverseFaceNodes (nf : Nat) (ptr : List Nat) (nodes : List Int) : M (List Int) :=
  loop nf (fun f (l : List Int) => do
    let i ← rd ptr f
    let j ← rd ptr (f + 1)
    check (i ≤ j - 1 ∧ 0 < j)
    reverseRange (j - i) l i (j - 1)) nodes

/-- The compressed numbering: `global_cell_index`, `local_cell_index`, `cellnum`.  Models: `preprocess.c:896-904`. -/
def numberCells (nc : Nat) (loc : List Int) (glob : List Int) : M (List Int × List Int × Nat) :=
  loop nc (fun i (s : List Int × List Int × Nat) => do
    let v ← rd s.2.1 i
    if v ≠ -1 then do
      let g ← wr s.1 s.2.2 (i : Int)
      let l ← wr s.2.1 i (s.2.2 : Int)
      .ok (g, l, s.2.2 + 1)
    else .ok s) (glob, loc, 0)

/-- The remapping of `face_neighbors`.  Models: `preprocess.c:907-912`. -/
def remapNeighbors (cnt : Nat) (loc : List Int) (nbr : List Int) : M (List Int) :=
  loop cnt (fun i (b : List Int) => do
    let v ← rd b i
    if v ≠ -1 then do
      let w ← rdI loc v
      wr b i w
    else .ok b) nbr

/-- One of the three coordinates of all nodes is multiplied by `f`.  Models: `preprocess.c:856-858`, `:921-923`, `:930-931`. -/
def scaleCoord (d : Nat) (f : Rat) (nn : Nat) (coords : List Rat) : M (List Rat) :=
  loop nn (fun i (c : List Rat) => do
    let v ← rd c (3 * i + d)
    wr c (3 * i + d) (f * v)) coords

/-- The input of `process_grdecl`.  `actnum`: `none` for `NULL`.  Models: `preprocess.h:56-62`. -/
structure Input where
  nx : Nat
  ny : Nat
  nz : Nat
  coord : List Rat
  zcorn : List Rat
  actnum : Option (List Int)

/-- The result of `process_grdecl`. -/
structure Output where
  grid : PGrid
  cells : List Int
  numCells : Nat
  coords : List Rat

/-- `BIGNUM`.  Models: `preprocess.c:776`. -/
def bignum : Nat := 64

/-- The points: what precedes the call of `is_lefthanded`.  `plist`, `node_coordinates`, number of nodes and the sign.  If `finduniquepoints` fails, its return value is
ignored: then `plist` and the number of nodes keep whatever they had, which is not modelled (`Err.ub`); it never fails, by `unique_points`.
Models: `preprocess.c:822-848`. -/
def points (J : Junk) (inp : Input) (tol : Rat) : M (Points × Int) := do
  let nc := inp.nx * inp.ny * inp.nz
  let actnum ← permuteActnum inp.nx inp.ny inp.nz inp.actnum (realloc J.i [] nc)
  let (sign, _) ← zcornSign inp.nx inp.ny inp.nz inp.actnum inp.zcorn
  let zcorn ← permuteZcorn inp.nx inp.ny inp.nz inp.zcorn sign (realloc J.r [] (nc * 8))
  let r ← findUniquePoints { nx := inp.nx, ny := inp.ny, nz := inp.nz, coord := inp.coord, zcorn := zcorn, actnum := actnum }
    (realloc J.i [] (8 * (nc + inp.nx * inp.ny))) tol J.r J.n
  match r with
  | some p => .ok (p, sign)
  | none => .error .ub

/-- The grid before faces are added.  Models: `preprocess.c:798-812`, `:870`, and `uniquepoints.c:345-346` (`number_of_nodes`, `number_of_nodes_on_pillars`). -/
def initialGrid (J : Junk) (np : Nat) : PGrid :=
  { m := bignum / 3, n := bignum, nbr := realloc J.i [] bignum, nodes := realloc J.i [] bignum, ptr := (realloc J.n [] (bignum / 3 + 1)).set 0 0,
    tag := realloc J.n [] (bignum / 3), nf := 0, nn := np, np := np, its := realloc J.i [] bignum }

/-- All faces: the grid, `local_cell_index` and `number_of_cells`.  Models: `preprocess.c:862-877`. -/
def faces (J : Junk) (plist : List Int) (np nx ny nz : Nat) : M (PGrid × List Int × Nat) := do
  let w := List.replicate (2 * nz + 2) (-1 : Int)
  let s ← verticalFaces J plist 0 nx ny nz (initialGrid J np, w, w)
  let s ← verticalFaces J plist 1 nx ny nz s
  horizontalFaces J plist nx ny nz (s.1, realloc J.i [] (nx * ny * nz))

/-- `process_grdecl(in, tolerance, out)`.  Models: `preprocess.c:761-943`. -/
def processGrdecl (J : Junk) (inp : Input) (tol : Rat) : M Output := do
  let (pts, sign) ← points J inp tol
  let lh ← isLefthanded inp.nx inp.ny inp.nz inp.actnum inp.coord inp.zcorn
  let coords ← if lh then scaleCoord 1 (-1) pts.numNodes pts.nodes else .ok pts.nodes
  let (g, loc, numCells) ← faces J pts.plist pts.numNodes inp.nx inp.ny inp.nz
  let coords ← intersectionCoordinates J g.its g.np g.nn coords
  let (glob, loc, _) ← numberCells (inp.nx * inp.ny * inp.nz) loc (realloc J.i [] (inp.nx * inp.ny * inp.nz))
  let nbr ← remapNeighbors (2 * g.nf) loc g.nbr
  let coords ← if lh then scaleCoord 1 (-1) g.nn coords else .ok coords
  let coords ← if sign = -1 then scaleCoord 2 sign g.nn coords else .ok coords
  let nodes ← if xor lh (decide (sign = -1)) then reverseFaceNodes g.nf g.ptr g.nodes else .ok g.nodes
  .ok { grid := { g with nbr := nbr, nodes := nodes }, cells := glob, numCells := numCells, coords := coords }

end Opm.Cpg
