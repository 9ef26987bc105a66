import Verif.Core.Buf
import Verif.Model.Bucket
import Verif.Model.HashSet
/-!
# Coarse grid topology

Models `opm/core/pressure/msmfem/coarse_conn.c`.  Memory allocation always succeeds (also for zero
elements), `int` arithmetic does not wrap.  New heap elements hold arbitrary values (`jn` for the
pointer tables, `ji` and `jk` for the integer tables).  A `struct block_neighbour *` is an
`Option Neighbour`, a table of them is a list; the floating-point hash of the hash sets is the parameter
`h` (see `Verif.Model.HashSet`).  Block numbers on the outside and unset neighbours are negative.
-/

namespace Opm.CoarseConn
open Opm

/-- `struct block_neighbour`.  Models: `coarse_conn.c:39-42`. -/
structure Neighbour where
  b : Int
  fconns : Option HashSet.Table
  deriving DecidableEq, Repr

/-- `struct block_neighbours`; `neigh == NULL` is the empty list.  Models: `coarse_conn.c:46-50`. -/
structure Neighbours where
  nneigh : Nat
  cpty : Nat
  neigh : List (Option Neighbour)
  deriving DecidableEq, Repr

/-- `INT_MIN`. -/
def intMin : Int := -2147483648

/-- `block_neighbour_allocate(nconn)`.  Models: `coarse_conn.c:76-100`. -/
def neighbourAllocate (nconn : Int) : Neighbour :=
  if nconn > 0 then { b := intMin, fconns := some (HashSet.allocate nconn.toNat) }
  else { b := intMin, fconns := none }

/-- `block_neighbour_insert_fconn(fconn, bn)`: the return value and the connection.
Models: `coarse_conn.c:106-121`. -/
def insertFconn (h : Int → Nat → Nat) (fconn : Int) (bn : Neighbour) : M (Int × Neighbour) :=
  match bn.fconns with
  | none => .ok (0, bn)
  | some t => do
    let r ← HashSet.insert h fconn t
    .ok (r.1, { bn with fconns := some r.2 })

/-- `block_neighbours_allocate(nneigh)`.  Models: `coarse_conn.c:149-178`. -/
def neighboursAllocate (jn : Nat → Option Neighbour) (nneigh : Nat) : M Neighbours :=
  if nneigh > 0 then do
    let neigh ← loop nneigh (fun i a => wr a i none) (realloc jn [] nneigh)
    .ok { nneigh := 0, cpty := nneigh, neigh := neigh }
  else .ok { nneigh := 0, cpty := 0, neigh := [] }

/-- `block_neighbours_expand(nneigh, bns)`: the return value is the last value of the loop counter.
Models: `coarse_conn.c:184-207`. -/
def neighboursExpand (jn : Nat → Option Neighbour) (nneigh : Nat) (bns : Neighbours) : M (Int × Neighbours) := do
  let neigh := realloc jn bns.neigh nneigh
  let neigh ← forRange bns.nneigh nneigh (fun i a => wr a i none) neigh
  .ok ((max bns.nneigh nneigh : Nat), { bns with cpty := nneigh, neigh := neigh })

/-- One step of the binary search.  Models: `coarse_conn.c:235-245`. -/
def searchStep (bns : Neighbours) (b : Int) (s : Nat × Nat) : M ((Nat × Nat) × Bool) :=
  if s.1 < s.2 then do
    let p := (s.1 + s.2) / 2
    let x ← rd bns.neigh p
    match x with
    | none => .error .assertFail
    | some nb =>
      if nb.b < b then .ok ((p + 1, s.2), true)
      else if nb.b > b then .ok ((s.1, p), true)
      else .ok ((p, p), true)
  else .ok (s, false)

/-- The binary search for block `b`.  Models: `coarse_conn.c:232-245`. -/
def search (bns : Neighbours) (b : Int) : M Nat := do
  let s ← whileFuel (bns.nneigh + 1) (searchStep bns b) (0, bns.nneigh)
  .ok s.1

/-- `memmove(a + i + 1, a + i, n * sizeof *a)`.  Models: `coarse_conn.c:260-261`. -/
def moveUp {α : Type} (a : List α) (i n : Nat) : M (List α) :=
  if i + 1 + n ≤ a.length then .ok (a.take (i + 1) ++ (a.drop i).take n ++ a.drop (i + 1 + n)) else .error .ub

/-- Makes sure that the table has a slot.  Models: `coarse_conn.c:225-228`. -/
def ensureTable (jn : Nat → Option Neighbour) (bns : Neighbours) : M (Int × Neighbours) :=
  if bns.neigh = [] ∨ bns.cpty = 0 then neighboursExpand jn 1 bns else .ok (1, bns)

/-- The connection to block `b`, if it is the one at position `i`.  Models: `coarse_conn.c:247-248`. -/
def hit (bns : Neighbours) (b : Int) (i : Nat) : M (Option Neighbour) :=
  if i < bns.nneigh then do
    let x ← rd bns.neigh i
    match x with
    | none => .ok none
    | some nb => .ok (if nb.b = b then some nb else none)
  else .ok none

/-- Makes room for one more connection.  Models: `coarse_conn.c:251-254`. -/
def makeRoom (jn : Nat → Option Neighbour) (ret : Int) (bns : Neighbours) : M (Int × Neighbours) :=
  if bns.nneigh = bns.cpty then do
    check (decide (bns.cpty ≥ 1))
    neighboursExpand jn (2 * bns.cpty) bns
  else .ok (ret, bns)

/-- Moves the connections from `i` on.  Models: `coarse_conn.c:257-262`. -/
def shiftUp (bns : Neighbours) (i : Nat) : M (List (Option Neighbour)) :=
  if i < bns.nneigh then moveUp bns.neigh i (bns.nneigh - i) else .ok bns.neigh

/-- `block_neighbours_insert_neighbour(b, fconn, expct_nconn, bns)`.  Models: `coarse_conn.c:216-279`. -/
def insertNeighbour (h : Int → Nat → Nat) (jn : Nat → Option Neighbour) (b fconn expct : Int) (bns : Neighbours) :
    M (Int × Neighbours) := do
  let r ← ensureTable jn bns
  if r.1 = 1 then do
    let bns := r.2
    let i ← search bns b
    let x ← hit bns b i
    match x with
    | some nb => do
      let r ← insertFconn h fconn nb
      let neigh ← wr bns.neigh i (some r.2)
      .ok (r.1, { bns with neigh := neigh })
    | none => do
      let r ← makeRoom jn r.1 bns
      if r.1 ≥ 0 then do
        let bns := r.2
        let neigh ← shiftUp bns i
        let r ← insertFconn h fconn (neighbourAllocate expct)
        let neigh ← wr neigh i (some { r.2 with b := b })
        .ok (r.1, { bns with neigh := neigh, nneigh := bns.nneigh + 1 })
      else .ok r
  else .ok r

/-- `count_blocks(nc, p)`.  Models: `coarse_conn.c:285-297`. -/
def countBlocks (nc : Nat) (p : List Int) : M Int := do
  let m ← loop nc (fun i m => do
    let x ← rd p i
    .ok (max m x)) (-1)
  .ok (m + 1)

/-- The block of cell `c`, `-1` for the outside.  Models: `coarse_conn.c:324-325`. -/
def blockOf (p : List Int) (c : Int) : M Int := if c ≥ 0 then rdI p c else .ok (-1)

/-- `if (bns[b_in] == NULL) bns[b_in] = block_neighbours_allocate(1);`  Models: `coarse_conn.c:342-344`. -/
def ensureBlock (jn : Nat → Option Neighbour) (x : Option Neighbours) : M Neighbours :=
  match x with
  | none => neighboursAllocate jn 1
  | some bns => .ok bns

/-- The inner and the outer block of a face with blocks `b1` and `b2`.  Models: `coarse_conn.c:329-338`. -/
def inOut (b1 b2 : Int) : Int × Int :=
  if b1 ≥ 0 ∧ b2 ≥ 0 then (-(max (-b1) (-b2)), max b1 b2)
  else if b1 ≥ 0 then (b1, b2)
  else (b2, b1)

/-- One iteration of the loop over the fine faces.  Models: `coarse_conn.c:324-353`. -/
def deriveStep (h : Int → Nat → Nat) (jn : Nat → Option Neighbour) (expct : Int) (p neighbours : List Int) (f : Nat)
    (s : Int × List (Option Neighbours)) : M (Int × List (Option Neighbours)) := do
  let c1 ← rd neighbours (2 * f + 0)
  let b1 ← blockOf p c1
  let c2 ← rd neighbours (2 * f + 1)
  let b2 ← blockOf p c2
  check (decide (b1 ≥ 0 ∨ b2 ≥ 0))
  let io := inOut b1 b2
  if io.1 ≠ io.2 then do
    let x ← rdI s.2 io.1
    let bns ← ensureBlock jn x
    let r ← insertNeighbour h jn io.2 (f : Int) expct bns
    let tab ← wrI s.2 io.1 (some r.2)
    .ok (r.1, tab)
  else .ok s

/-- `if (bns[b1] != NULL) ret += bns[b1]->nneigh;`  Models: `coarse_conn.c:360-362`. -/
def numNeigh : Option Neighbours → Int
  | none => 0
  | some bn => bn.nneigh

/-- `derive_block_faces(nfinef, nblk, expct_nconn, p, neighbours, bns)`: the number of coarse faces (or a
negative number) and the table.  Models: `coarse_conn.c:313-367`. -/
def deriveBlockFaces (h : Int → Nat → Nat) (jn : Nat → Option Neighbour) (nfinef nblk : Nat) (expct : Int)
    (p neighbours : List Int) (bns : List (Option Neighbours)) : M (Int × List (Option Neighbours)) := do
  let s ← loop nfinef (fun f (s : Int × List (Option Neighbours)) =>
    if 0 ≤ s.1 then deriveStep h jn expct p neighbours f s else .ok s) (0, bns)
  if s.1 ≥ 0 then do
    let n ← loop nblk (fun b (n : Int) => do
      let x ← rd s.2 b
      .ok (n + numNeigh x)) 0
    .ok (n, s.2)
  else .ok s

/-- State of `coarse_topology_build_coarsef`. -/
structure FaceState where
  coarsef : Nat
  neighbours : List Int
  blkfacepos : List Nat
  nsubf : Nat
  deriving DecidableEq, Repr

/-- `if (b >= 0) blkfacepos[b + 1] += 1;`  Models: `coarse_conn.c:396-398`. -/
def bumpOther (b : Int) (pos : List Nat) : M (List Nat) :=
  if b ≥ 0 then bump pos (b + 1).toNat else .ok pos

/-- The number of fine connections, if known.  Models: `coarse_conn.c:400-402`. -/
def countConns (nb : Neighbour) : M Nat :=
  match nb.fconns with
  | none => .ok 0
  | some t => HashSet.countElms t

/-- The body of the loop over the neighbours of block `b`.  Models: `coarse_conn.c:390-402`. -/
def coarsefStep (b : Nat) (bn : Neighbours) (n : Nat) (s : FaceState) : M FaceState := do
  let x ← rd bn.neigh n
  match x with
  | none => .error .ub
  | some nb => do
    let neighbours ← wr s.neighbours (2 * s.coarsef + 0) (b : Int)
    let neighbours ← wr neighbours (2 * s.coarsef + 1) nb.b
    let pos ← bump s.blkfacepos (b + 1)
    let pos ← bumpOther nb.b pos
    let k ← countConns nb
    .ok { coarsef := s.coarsef + 1, neighbours := neighbours, blkfacepos := pos, nsubf := s.nsubf + k }

/-- The body of the loop over the blocks.  Models: `coarse_conn.c:388-404`. -/
def coarsefBlock (bns : List (Option Neighbours)) (b : Nat) (s : FaceState) : M FaceState := do
  let x ← rd bns b
  match x with
  | none => .ok s
  | some bn => loop bn.nneigh (coarsefStep b bn) s

/-- `coarse_topology_build_coarsef(nblk, bns, neighbours, blkfacepos, &nblkf, &nsubf)`: the two tables,
`nblkf` and `nsubf`.  Models: `coarse_conn.c:376-414`. -/
def buildCoarsef (nblk : Nat) (bns : List (Option Neighbours)) (neighbours : List Int) (blkfacepos : List Nat) :
    M (List Int × List Nat × Nat × Nat) := do
  let s ← loop nblk (coarsefBlock bns) { coarsef := 0, neighbours := neighbours, blkfacepos := blkfacepos, nsubf := 0 }
  let pos ← accumulate nblk s.blkfacepos
  let nblkf ← rd pos 0
  let pos ← wr pos 0 0
  .ok (s.neighbours, pos, nblkf, s.nsubf)

/-- State of the loops over the sub-faces. -/
structure SubState where
  coarsef : Nat
  subpos : Nat
  valid : Bool
  subfacepos : List Nat
  subfaces : List Int
  deriving DecidableEq, Repr

/-- `for (i = 0; i < set->m; i++) if (set->s[i] != -1) subfaces[subpos ++] = set->s[i];`
Models: `coarse_conn.c:462-466`. -/
def copySet (t : HashSet.Table) (s : Nat × List Int) : M (Nat × List Int) :=
  loop t.m (fun i s => do
    let x ← rd t.s i
    if x ≠ -1 then do
      let sf ← wr s.2 s.1 x
      .ok (s.1 + 1, sf)
    else .ok s) s

/-- The body of the loop over the neighbours of a block; once `valid` is false the loop has ended.
Models: `coarse_conn.c:458-471`. -/
def subStep (bn : Neighbours) (n : Nat) (s : SubState) : M SubState :=
  if s.valid then do
    let x ← rd bn.neigh n
    match x with
    | none => .error .ub
    | some nb =>
      match nb.fconns with
      | none => .ok { s with valid := false }
      | some t => do
        let r ← copySet t (s.subpos, s.subfaces)
        let pos ← wr s.subfacepos (s.coarsef + 1) r.1
        .ok { coarsef := s.coarsef + 1, subpos := r.1, valid := true, subfacepos := pos, subfaces := r.2 }
  else .ok s

/-- The body of the loop over the blocks.  Models: `coarse_conn.c:456-473`. -/
def subBlock (bns : List (Option Neighbours)) (b : Nat) (s : SubState) : M SubState :=
  if s.valid then do
    let x ← rd bns b
    match x with
    | none => .ok s
    | some bn => loop bn.nneigh (subStep bn) s
  else .ok s

/-- `if (b >= 0) blkfaces[blkfacepos[b + 1] ++] = f;`  Models: `coarse_conn.c:447-448`. -/
def pushFace (b : Int) (f : Nat) (s : List Nat × List Nat) : M (List Nat × List Nat) :=
  if b ≥ 0 then pushAt (b + 1).toNat f s else .ok s

/-- The loop filling `blkfaces`.  Models: `coarse_conn.c:441-449`. -/
def pushStep (neighbours : List Int) (f : Nat) (s : List Nat × List Nat) : M (List Nat × List Nat) := do
  let b1 ← rd neighbours (2 * f + 0)
  let b2 ← rd neighbours (2 * f + 1)
  check (decide (b1 ≠ b2))
  let s ← pushFace b1 f s
  pushFace b2 f s

/-- `coarse_topology_build_final(…)`: `blkfacepos`, `blkfaces`, the sub-face tables and the return value.
Models: `coarse_conn.c:427-478`. -/
def buildFinal (ncf nblk : Nat) (neighbours : List Int) (blkfacepos blkfaces : List Nat) (bns : List (Option Neighbours))
    (sub : Option (List Nat × List Int)) : M ((List Nat × List Nat) × Option (List Nat × List Int) × Bool) := do
  let s ← loop ncf (pushStep neighbours) (blkfacepos, blkfaces)
  match sub with
  | none => .ok (s, none, true)
  | some (pos, sf) => do
    let r ← loop nblk (subBlock bns) { coarsef := 0, subpos := 0, valid := true, subfacepos := pos, subfaces := sf }
    .ok (s, some (r.subfacepos, r.subfaces), r.valid)

/-- `struct coarse_topology`; the sub-face tables may be `NULL`.  Models: `coarse_conn.h:27-38`. -/
structure Topology where
  nblocks : Nat
  nfaces : Nat
  neighbours : List Int
  blkfacepos : List Nat
  blkfaces : List Nat
  sub : Option (List Nat × List Int)
  deriving DecidableEq, Repr

/-- The sub-face tables.  Models: `coarse_conn.c:523-535`. -/
def allocSub (ji : Nat → Int) (jk : Nat → Nat) (ncf nsubf : Nat) : M (Option (List Nat × List Int)) :=
  if nsubf > 0 then do
    let pos ← fill (ncf + 1) 0 (realloc jk [] (ncf + 1))
    .ok (some (pos, realloc ji [] nsubf))
  else .ok none

/-- `coarse_topology_build(ncoarse_f, nblk, bns)`.  Without valid sub-faces `nblocks` and `nfaces` are never
set; the model counts that as an undefined outcome.  Models: `coarse_conn.c:489-563`. -/
def build (ji : Nat → Int) (jk : Nat → Nat) (ncf nblk : Nat) (bns : List (Option Neighbours)) : M Topology := do
  let neighbours ← fill (2 * ncf) intMin (realloc ji [] (2 * ncf))
  let blkfacepos ← fill (nblk + 1) 0 (realloc jk [] (nblk + 1))
  let r ← buildCoarsef nblk bns neighbours blkfacepos
  let sub ← allocSub ji jk ncf r.2.2.2
  let s ← buildFinal ncf nblk r.1 r.2.1 (realloc jk [] r.2.2.1) bns sub
  if s.2.2 then
    .ok { nblocks := nblk, nfaces := ncf, neighbours := r.1, blkfacepos := s.1.1, blkfaces := s.1.2, sub := s.2.1 }
  else .error .ub

/-- `coarse_topology_create(nc, nf, expct_nconn, p, neighbours)`; `none` for a `NULL` result (a negative
number of coarse faces makes the first `malloc` fail).  Models: `coarse_conn.c:572-605`. -/
def create (h : Int → Nat → Nat) (jn : Nat → Option Neighbour) (ji : Nat → Int) (jk : Nat → Nat) (nc nf : Nat) (expct : Int)
    (p neighbours : List Int) : M (Option Topology) := do
  let nblocks ← countBlocks nc p
  let bns ← fill nblocks.toNat none (List.replicate nblocks.toNat none)
  let r ← deriveBlockFaces h jn nf nblocks.toNat expct p neighbours bns
  if r.1 < 0 then .ok none
  else do
    let t ← build ji jk r.1.toNat nblocks.toNat r.2
    .ok (some t)

end Opm.CoarseConn
