import Verif.Model.CoarseConn
import Verif.Spec.Slice
/-!
# What a coarse grid topology is

Specification only: fine faces between blocks, and the coarse topology they determine.
-/

namespace Opm.CoarseConn
open Opm

/-- Valid arguments of `coarse_topology_create`: `p` has a non-negative block number for every cell,
`neighbours` has two entries for every fine face, a negative one for the outside, and no face has the outside
on both sides. -/
structure Ok (nc nf : Nat) (p neighbours : List Int) : Prop where
  plen : p.length = nc
  pos : ∀ x ∈ p, 0 ≤ x
  nlen : neighbours.length = 2 * nf
  lt : ∀ c ∈ neighbours, c < nc
  inside : ∀ f : Nat, f < nf → 0 ≤ neighbours.getD (2 * f) (-1) ∨ 0 ≤ neighbours.getD (2 * f + 1) (-1)

/-- The block on side `k` of fine face `f`; `-1` is the outside. -/
def side (p neighbours : List Int) (f k : Nat) : Int :=
  let c := neighbours.getD (2 * f + k) (-1)
  if 0 ≤ c then p.getD c.toNat (-1) else -1

/-- Fine face `f` has block `a` on one side and block `b` on the other. -/
def Between (p neighbours : List Int) (a b : Int) (f : Nat) : Prop :=
  (side p neighbours f 0 = a ∧ side p neighbours f 1 = b) ∨ (side p neighbours f 0 = b ∧ side p neighbours f 1 = a)

/-- The two blocks of coarse face `j` (as stored). -/
def Topology.HasFace (t : Topology) (j : Nat) (a b : Int) : Prop :=
  j < t.nfaces ∧ t.neighbours[2 * j]? = some a ∧ t.neighbours[2 * j + 1]? = some b

/-- The coarse topology determined by the fine faces and the partition. -/
structure IsCoarse (nf : Nat) (p neighbours : List Int) (t : Topology) : Prop where
  /-- The blocks are `0, …, max p`. -/
  nblocks : ∀ b : Nat, b < t.nblocks ↔ ∃ x ∈ p, (b : Int) ≤ x
  len : t.neighbours.length = 2 * t.nfaces
  /-- A coarse face lies between two different blocks, the smaller one first, or between a block and the
  outside; and there is a fine face between them. -/
  sound : ∀ j : Nat, j < t.nfaces → ∃ (a : Nat) (b : Int), t.HasFace j a b ∧ a < t.nblocks ∧
    (b = -1 ∨ ((a : Int) < b ∧ b < t.nblocks)) ∧ ∃ f, f < nf ∧ Between p neighbours a b f
  /-- Every fine face between different blocks (or a block and the outside) is represented. -/
  complete : ∀ (f : Nat) (a b : Int), f < nf → Between p neighbours a b f → a ≠ b → ∃ j, t.HasFace j a b ∨ t.HasFace j b a
  /-- One coarse face for every pair. -/
  unique : ∀ (j j' : Nat) (a b : Int), t.HasFace j a b → (t.HasFace j' a b ∨ t.HasFace j' b a) → j = j'
  /-- The faces of every block, in increasing order, each once. -/
  blkpos0 : t.blkfacepos[0]? = some 0
  blkposlen : t.blkfacepos.length = t.nblocks + 1
  blkposlast : t.blkfacepos[t.nblocks]? = some t.blkfaces.length
  blkfaces : ∀ b : Nat, b < t.nblocks → ∃ q q' l, t.blkfacepos[b]? = some q ∧ t.blkfacepos[b + 1]? = some q' ∧
    slice t.blkfaces q q' = .ok l ∧ l.Pairwise (· < ·) ∧
    ∀ j : Nat, j ∈ l ↔ ∃ x : Int, t.HasFace j b x ∨ t.HasFace j x b

/-- The sub-face tables `pos`, `sf` list for every coarse face exactly the fine faces between its blocks. -/
structure IsSub (nf : Nat) (p neighbours : List Int) (t : Topology) (pos : List Nat) (sf : List Int) : Prop where
  pos0 : pos[0]? = some 0
  poslen : pos.length = t.nfaces + 1
  poslast : pos[t.nfaces]? = some sf.length
  faces : ∀ (j : Nat) (a b : Int), t.HasFace j a b → ∃ q q' l, pos[j]? = some q ∧ pos[j + 1]? = some q' ∧
    slice sf q q' = .ok l ∧ l.Nodup ∧ ∀ x : Int, x ∈ l ↔ ∃ f : Nat, f < nf ∧ x = f ∧ Between p neighbours a b f

end Opm.CoarseConn
