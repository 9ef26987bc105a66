import Verif.Model.Bucket
import Verif.Model.Dfs
/-!
# Partitions of a grid into coarse blocks

Models `opm/core/pressure/msmfem/partition.c`.  `int`s are unbounded; quantities that the code
only ever keeps non-negative (cell numbers, pointers, Cartesian indices and dimensions) are `Nat`;
partition vectors and neighbour lists, whose entries may be negative, are `Int`.  Allocation
always succeeds.
-/

namespace Opm.Partition
open Opm

/-- `partition_coord_idx`: split a linear index into Cartesian ones; asserts nothing is left.
Recursion over the remaining dimensions replaces the loop.  Models: `partition.c:35-47`. -/
def coordIdx : List Nat → Nat → M (List Nat)
  | [], idx => do
    check (idx == 0)
    .ok []
  | d :: ds, idx =>
    if d = 0 then .error .ub
    else do
      let rest ← coordIdx ds (idx / d)
      .ok (idx % d :: rest)

/-- `partition_lin_idx`: combine Cartesian indices, last dimension first.
`cidx[ndims-1]` with `ndims = 0` is out of bounds.  Models: `partition.c:51-64`. -/
def linIdx : List Nat → List Nat → M Nat
  | [_], [x] => .ok x
  | d :: ds, x :: xs => do
    let idx ← linIdx ds xs
    .ok (x + d * idx)
  | _, _ => .error .ub

/-- One coordinate of `partition_loadbal_lin_dist`.  `/` is C's truncating division, the
numerator `idx - R` may be negative.  Models: `partition.c:80-86`. -/
def loadBal1 (size nbins idx : Nat) : M Nat :=
  if nbins = 0 then .error .ub
  else
    let L := size / nbins
    let R := size % nbins
    let b1 : Int := (idx : Int).tdiv ((L : Int) + 1)
    if L = 0 then .error .ub
    else
      let b2 : Int := ((idx : Int) - (R : Int)).tdiv (L : Int)
      .ok (max b1 b2).toNat

/-- `partition_loadbal_lin_dist`.  Models: `partition.c:72-88`. -/
def loadBal : List Nat → List Nat → List Nat → M (List Nat)
  | [], [], [] => .ok []
  | s :: ss, b :: bs, x :: xs => do
    let y ← loadBal1 s b x
    let ys ← loadBal ss bs xs
    .ok (y :: ys)
  | _, _, _ => .error .ub

/-- `partition_unif_idx`: the loop over the cells; `p` is overwritten.
Models: `partition.c:100-127`. -/
def unifIdx (fine coarse : List Nat) (idx : List Nat) (p : List Int) : M (List Int) :=
  loop idx.length (fun c p => do
    let x ← rd idx c
    let ix ← coordIdx fine x
    let ix ← loadBal fine coarse ix
    let b ← linIdx coarse ix
    wr p c (b : Int)) p

/-- The maximum loop shared by `partition_compress` and `max_block`.
Models: `partition.c:141-146` (without the assertion), `:221-233`. -/
def maxBlock (n : Nat) (p : List Int) : M Int :=
  loop n (fun i m => do
    let x ← rd p i
    .ok (max m x)) (-1)

/-- `partition_compress(n, p)`: returns the new vector and the largest new block number.
Models: `partition.c:135-169`. -/
def compress (n : Nat) (p : List Int) : M (List Int × Int) := do
  check (decide (n > 0))
  let mx ← loop n (fun i (m : Int) => do
    let x ← rd p i
    check (decide (0 ≤ x))
    .ok (max m x)) (-1)
  let compr ← fill (mx + 1).toNat 0 (List.replicate (mx + 1).toNat (0 : Int))
  let compr ← loop n (fun i compr => do
    let x ← rd p i
    let v ← rdI compr x
    wrI compr x (v + 1)) compr
  let v0 ← rd compr 0
  let compr ← wr compr 0 (-1 + (if v0 > 0 then 1 else 0))
  let compr ← loop mx.toNat (fun k compr => do
    let a ← rd compr k
    let v ← rd compr (k + 1)
    wr compr (k + 1) (a + (if v > 0 then 1 else 0))) compr
  let p ← loop n (fun i p => do
    let x ← rd p i
    let v ← rdI compr x
    wr p i v) p
  let ret ← rdI compr mx
  .ok (p, ret)

/-- `partition_invert(nc, p, pi, inverse)`.  Models: `partition.c:239-268`. -/
def invert (nc : Nat) (p : List Int) (pi inverse : List Nat) : M (List Nat × List Nat) := do
  let mx ← maxBlock nc p
  let nbin := (mx + 1).toNat
  let pi ← fill (nbin + 1) 0 pi
  let pi ← loop nc (fun i pi => do
    let x ← rd p i
    if x + 1 < 0 then .error .ub else bump pi (x + 1).toNat) pi
  let pi ← accumulate nbin pi
  let s ← loop nc (fun i s => do
    let x ← rd p i
    if x + 1 < 0 then .error .ub else pushAt (x + 1).toNat i s) (pi, inverse)
  let last ← rd s.1 nbin
  check (last == nc)
  let pi ← wr s.1 0 0
  .ok (pi, s.2)

/-- `partition_localidx(nbin, pi, inverse, localidx)`.  Models: `partition.c:274-286`. -/
def localidx (nbin : Nat) (pi inverse : List Nat) (loc : List Nat) : M (List Nat) :=
  loop nbin (fun b loc => do
    let a ← rd pi b
    let e ← rd pi (b + 1)
    forRange a e (fun i loc => do
      let c ← rd inverse i
      let a ← rd pi b
      wr loc c (i - a)) loc) loc

/-- First pass of `partition_create_c2c`: count connections.  Models: `partition.c:328-337`. -/
def countC2C (nneigh : Nat) (neigh : List Int) (pc2c : List Nat) : M (List Nat) :=
  loop nneigh (fun i pc2c => do
    let c1 ← rd neigh (2 * i)
    let c2 ← rd neigh (2 * i + 1)
    if c1 ≥ 0 ∧ c2 ≥ 0 then do
      let pc2c ← bump pc2c (c1 + 1).toNat
      bump pc2c (c2 + 1).toNat
    else .ok pc2c) pc2c

/-- The loop that adds the self connection and accumulates.  Models: `partition.c:339-344`. -/
def accumulateSelf (nc : Nat) (pc2c : List Nat) : M (List Nat) :=
  loop nc (fun k ia => do
    let ia ← bump ia (k + 1)
    let a0 ← rd ia 0
    let x ← rd ia (k + 1)
    let ia ← wr ia 0 (a0 + x)
    let a0 ← rd ia 0
    let x ← rd ia (k + 1)
    wr ia (k + 1) (a0 - x)) pc2c

/-- Second pass of `partition_create_c2c`: insert the connections.  Models: `partition.c:354-363`. -/
def insertC2C (nneigh : Nat) (neigh : List Int) (s : List Nat × List Nat) : M (List Nat × List Nat) :=
  loop nneigh (fun i s => do
    let c1 ← rd neigh (2 * i)
    let c2 ← rd neigh (2 * i + 1)
    if c1 ≥ 0 ∧ c2 ≥ 0 then do
      let s ← pushAt (c1 + 1).toNat c2.toNat s
      pushAt (c2 + 1).toNat c1.toNat s
    else .ok s) s

/-- `partition_create_c2c(nc, nneigh, neigh, &pc2c, &c2c)`; returns `(pc2c, c2c)`.  As in the code
`pc2c[0]` is left holding the total number of connections.  Models: `partition.c:311-379`. -/
def createC2C (nc nneigh : Nat) (neigh : List Int) : M (List Nat × List Nat) := do
  check (decide (nc > 0))
  check (decide (nneigh > 0))
  let pc2c ← fill (nc + 1) 0 (List.replicate (nc + 1) 0)
  let pc2c ← countC2C nneigh neigh pc2c
  let pc2c ← accumulateSelf nc pc2c
  let tot ← rd pc2c 0
  let s ← loop nc (fun i s => pushAt (i + 1) i s) (pc2c, List.replicate tot 0)
  insertC2C nneigh neigh s

/-- `count_block_conns(...)`; returns `(max_blk_cells, max_blk_conn)`.  The running index `i` of the
code is the first component of the inner state.  Models: `partition.c:430-452`. -/
def countBlockConns (nblk : Nat) (pb2c b2c pc2c : List Nat) : M (Int × Int) := do
  let r ← loop nblk (fun b (st : Nat × Int × Int) => do
    let e ← rd pb2c (b + 1)
    let nConn ← forRange st.1 e (fun i (n : Int) => do
      let c ← rd b2c i
      let y ← rd pc2c (c + 1)
      let x ← rd pc2c c
      .ok (n + ((y : Int) - (x : Int)))) 0
    let a ← rd pb2c b
    .ok (max st.1 e, max st.2.1 ((e : Int) - (a : Int)), max st.2.2 nConn)) (0, 0, 0)
  .ok r.2

/-- Count the connections internal to block `b`.  Models: `partition.c:476-486`. -/
def countBlock (b : Nat) (p : List Int) (loc pb2c b2c pc2c c2c : List Nat) (ia : List Nat) : M (List Nat) := do
  let s0 ← rd pb2c b
  let s1 ← rd pb2c (b + 1)
  forRange s0 s1 (fun i ia => do
    let c ← rd b2c i
    let l ← rd loc c
    check (l == i - s0)
    let j0 ← rd pc2c c
    let j1 ← rd pc2c (c + 1)
    forRange j0 j1 (fun j ia => do
      let d ← rd c2c j
      let q ← rd p d
      if q = (b : Int) then bump ia (l + 1) else .ok ia) ia) ia

/-- Insert the connections internal to block `b`.  Models: `partition.c:495-504`. -/
def insertBlock (b : Nat) (p : List Int) (loc pb2c b2c pc2c c2c : List Nat) (s : List Nat × List Nat) :
    M (List Nat × List Nat) := do
  let s0 ← rd pb2c b
  let s1 ← rd pb2c (b + 1)
  forRange s0 s1 (fun i s => do
    let c ← rd b2c i
    let j0 ← rd pc2c c
    let j1 ← rd pc2c (c + 1)
    forRange j0 j1 (fun j s => do
      let d ← rd c2c j
      let q ← rd p d
      if q = (b : Int) then do
        let l ← rd loc c
        let ld ← rd loc d
        pushAt (l + 1) ld s
      else .ok s) s) s

/-- `create_block_conns(b, p, loc, pb2c, b2c, pc2c, c2c, ia, ja)`.  Models: `partition.c:459-507`. -/
def createBlockConns (b : Nat) (p : List Int) (loc pb2c b2c pc2c c2c : List Nat) (ia ja : List Nat) :
    M (List Nat × List Nat) := do
  let s1 ← rd pb2c (b + 1)
  let s0 ← rd pb2c b
  let nc := s1 - s0
  let ia ← fill (nc + 1) 0 ia
  let ia ← countBlock b p loc pb2c b2c pc2c c2c ia
  let z ← rd ia 0
  check (z == 0)
  let ia ← accumulate nc ia
  let s ← insertBlock b p loc pb2c b2c pc2c c2c (ia, ja)
  let ia ← wr s.1 0 0
  .ok (ia, s.2)

/-- The buffers and counters carried through the loop over the blocks. -/
structure SplitState where
  p : List Int
  ia : List Nat
  ja : List Nat
  colour : List Int
  work : List Int
  ret : Int
  deriving DecidableEq

/-- Give new numbers to the cells of components `1, 2, …` of block `b`.
Models: `partition.c:555-566`. -/
def renumber (b : Nat) (maxblk : Int) (ncolour : Nat) (pb2c b2c : List Nat) (st : SplitState) : M SplitState := do
  if ncolour > 1 then do
    let s0 ← rd pb2c b
    let s1 ← rd pb2c (b + 1)
    let p ← forRange s0 s1 (fun i p => do
      let k ← rd st.colour (i - s0)
      if k > 0 then do
        let c ← rd b2c i
        wr p c (maxblk + st.ret + k)
      else .ok p) st.p
    .ok { st with p := p, ret := st.ret + ((ncolour : Int) - 1) }
  else .ok st

/-- The body of the loop over the blocks.  Models: `partition.c:550-567`. -/
def splitBlock (fuel : Nat) (maxblk : Int) (loc pb2c b2c pc2c c2c : List Nat) (b : Nat) (st : SplitState) :
    M SplitState := do
  let g ← createBlockConns b st.p loc pb2c b2c pc2c c2c st.ia st.ja
  let s1 ← rd pb2c (b + 1)
  let s0 ← rd pb2c b
  let r ← Dfs.dfs fuel (s1 - s0) g.1 g.2 st.colour st.work
  renumber b maxblk r.2.2 pb2c b2c { st with ia := g.1, ja := g.2, colour := r.1, work := r.2.1 }

/-- Everything `partition_split_disconnected` does once the cell-to-cell connectivity exists.
Models: `partition.c:531-533, 535, 538-567`. -/
def splitWith (fuel nc : Nat) (pc2c c2c : List Nat) (p : List Int) : M (List Int × Int) := do
  let maxblk ← maxBlock nc p
  let nblk := (maxblk + 1).toNat
  let inv ← invert nc p (List.replicate (nblk + 1) 0) (List.replicate nc 0)
  let loc ← localidx nblk inv.1 inv.2 (List.replicate nc 0)
  let sz ← countBlockConns nblk inv.1 inv.2 pc2c
  let n := sz.1.toNat
  let st ← loop nblk (splitBlock fuel maxblk loc inv.1 inv.2 pc2c c2c)
    { p := p, ia := List.replicate (n + 1) 0, ja := List.replicate sz.2.toNat 0,
      colour := List.replicate n 0, work := List.replicate (2 * n) 0, ret := 0 }
  .ok (st.p, st.ret)

/-- `partition_split_disconnected(nc, nneigh, neigh, p)`: returns the new partition vector and the
number of new blocks.  (The code creates `c2c` after computing `maxblk`; the two are independent.)
Models: `partition.c:521-582`. -/
def splitDisconnected (fuel nc nneigh : Nat) (neigh : List Int) (p : List Int) : M (List Int × Int) := do
  let g ← createC2C nc nneigh neigh
  splitWith fuel nc g.1 g.2 p

end Opm.Partition
