import Verif.Spec.Preprocess
/-!
# Processed corner-point grids: specification

What a user of `process_grdecl` can rely on, in terms of its input and its output.
-/

namespace Opm.Cpg
open Opm UniquePoints

/-- The inputs considered.  The arrays have the right sizes; there are less than `2^31` corners; along each column of corners depth times `s` does not decrease downwards
(`s = 1`: depths, `s = -1`: heights); some active cell has a thickness; the pillars at the corners of the grid span an area. -/
structure Input.Good (inp : Input) (s : Int) : Prop where
  ok : inp.Ok
  small : ((8 * (inp.nx * inp.ny * inp.nz) : Nat) : Int) ≤ intMax
  sign : s = 1 ∨ s = -1
  sorted : ∀ I J, I < 2 * inp.nx → J < 2 * inp.ny → inp.Sorted s I J
  thick : ∃ i j k, i < inp.nx ∧ j < inp.ny ∧ k < inp.nz ∧ inp.Active i j k ∧ inp.Thick i j k
  area : inp.area ≠ 0

/-- Face `f` of the output: its two cells and its points. -/
def Output.face (out : Output) (f : Nat) : Face :=
  ⟨out.grid.nbr.getD (2 * f) 0, out.grid.nbr.getD (2 * f + 1) 0, (out.grid.nodes.drop (out.grid.ptr.getD f 0)).take (out.grid.ptr.getD (f + 1) 0 - out.grid.ptr.getD f 0)⟩

/-- Tag of face `f`: 0, 1, 2 for faces between neighbours in the first, second, third direction. -/
def Output.tag (out : Output) (f : Nat) : Nat := out.grid.tag.getD f 0

/-- Cell `n` of the output is cell `(i, j, k)` of the input. -/
def Output.IsCellAt (out : Output) (inp : Input) (n i j k : Nat) : Prop :=
  n < out.numCells ∧ i < inp.nx ∧ j < inp.ny ∧ k < inp.nz ∧ out.cells[n]? = some ((cartesian inp.nx inp.ny i j k : Nat) : Int)

/-- Corner `(I, J, K)` exists and belongs to an active cell. -/
def Input.Corner (inp : Input) (I J K : Nat) : Prop := I < 2 * inp.nx ∧ J < 2 * inp.ny ∧ K < 2 * inp.nz ∧ inp.Active (I / 2) (J / 2) (K / 2)

/-- Two quadrangles between the same two vertical lines have a common point.  The first has the depths `a` (top) and `a'` (bottom) on the first line, `b` and `b'` on the
second; the second has `c`, `c'`, `d`, `d'`. -/
def Meet (a a' b b' c c' d d' : Rat) : Prop :=
  ∃ t z : Rat, 0 < t ∧ t < 1 ∧ (1 - t) * a + t * b < z ∧ z < (1 - t) * a' + t * b' ∧ (1 - t) * c + t * d < z ∧ z < (1 - t) * c' + t * d'

/-- The columns of corners on the side of higher (`r = 1`) or lower (`r = 0`) index of cell column `(i, j)` in direction `dir`. -/
def sideCols (dir r i j : Nat) : (Nat × Nat) × (Nat × Nat) :=
  if dir = 0 then ((2 * i + r, 2 * j), (2 * i + r, 2 * j + 1)) else ((2 * i + 1, 2 * j + r), (2 * i, 2 * j + r))

/-- Cell `(i, j, k)` and cell `(i', j', k')`, its neighbour of higher index in direction `dir` up to the layer, have parts of their sides in common, if the corners have the
depths `d`. -/
def SidesMeet (d : Nat → Nat → Nat → Rat) (dir i j k i' j' k' : Nat) : Prop :=
  Meet (d (sideCols dir 1 i j).1.1 (sideCols dir 1 i j).1.2 (2 * k)) (d (sideCols dir 1 i j).1.1 (sideCols dir 1 i j).1.2 (2 * k + 1))
    (d (sideCols dir 1 i j).2.1 (sideCols dir 1 i j).2.2 (2 * k)) (d (sideCols dir 1 i j).2.1 (sideCols dir 1 i j).2.2 (2 * k + 1))
    (d (sideCols dir 0 i' j').1.1 (sideCols dir 0 i' j').1.2 (2 * k')) (d (sideCols dir 0 i' j').1.1 (sideCols dir 0 i' j').1.2 (2 * k' + 1))
    (d (sideCols dir 0 i' j').2.1 (sideCols dir 0 i' j').2.2 (2 * k')) (d (sideCols dir 0 i' j').2.1 (sideCols dir 0 i' j').2.2 (2 * k' + 1))

/-- Cell column `(i', j')` is next to `(i, j)` in direction `dir`. -/
def NextTo (dir i j i' j' : Nat) : Prop := dir = 0 ∧ i' = i + 1 ∧ j' = j ∨ dir = 1 ∧ i' = i ∧ j' = j + 1

/-- The four corners of cell `(i, j, k)` at its top (`r = 0`) or bottom (`r = 1`), once around; in the opposite order if `flip`. -/
def cornerRing (num : Nat → Nat → Nat → Int) (flip : Prop) [Decidable flip] (i j k r : Nat) : List Int :=
  let l := [num (2 * i) (2 * j) (2 * k + r), num (2 * i + 1) (2 * j) (2 * k + r), num (2 * i + 1) (2 * j + 1) (2 * k + r), num (2 * i) (2 * j + 1) (2 * k + r)]
  if flip then l.reverse else l

/-- The output `out` describes the grid given by `inp`; corner `(I, J, K)` of an active cell is node `num I J K`. -/
structure Processed (inp : Input) (s : Int) (tol : Rat) (out : Output) (num : Nat → Nat → Nat → Int) : Prop where
  /-- The node of a corner is not more than `tol` above or below it. -/
  corner : ∀ I J K, inp.Corner I J K → ∃ k : Nat, num I J K = k ∧ k < out.grid.np ∧ k < out.grid.nn ∧ (ptOf out.coords k).z - inp.z I J K ≤ tol ∧ inp.z I J K - (ptOf out.coords k).z ≤ tol ∧
    inp.OnPillar (pillarAt inp.nx I J) ⟨(ptOf out.coords k).x, (ptOf out.coords k).y, s * (ptOf out.coords k).z⟩
  /-- Corners of the same depth on the same pillar have the same node; those of different pillars have different nodes; nodes on one pillar are more than `tol` apart. -/
  same : ∀ I J K I' J' K', inp.Corner I J K → inp.Corner I' J' K' → pillarAt inp.nx I J = pillarAt inp.nx I' J' → inp.z I J K = inp.z I' J' K' → num I J K = num I' J' K'
  pillar : ∀ I J K I' J' K', inp.Corner I J K → inp.Corner I' J' K' → num I J K = num I' J' K' → pillarAt inp.nx I J = pillarAt inp.nx I' J'
  apart : ∀ I J K I' J' K', inp.Corner I J K → inp.Corner I' J' K' → pillarAt inp.nx I J = pillarAt inp.nx I' J' → num I J K < num I' J' K' →
    s * (ptOf out.coords (num I J K).toNat).z + tol < s * (ptOf out.coords (num I' J' K').toNat).z
  /-- The cells of the output are, in increasing Cartesian order, the active cells with two different corners above each other. -/
  increasing : (out.cells.take out.numCells).Pairwise (· < ·)
  cells : ∀ c : Int, c ∈ out.cells.take out.numCells ↔ ∃ i j k, i < inp.nx ∧ j < inp.ny ∧ k < inp.nz ∧ c = (cartesian inp.nx inp.ny i j k : Nat) ∧ inp.Active i j k ∧
    ∃ a b, a < 2 ∧ b < 2 ∧ num (2 * i + a) (2 * j + b) (2 * k) ≠ num (2 * i + a) (2 * j + b) (2 * k + 1)
  /-- The cells of a face exist, or are `-1`; there is at least one. -/
  range : ∀ f, f < out.grid.nf → (-1 ≤ (out.face f).a ∧ (out.face f).a < out.numCells) ∧ (-1 ≤ (out.face f).b ∧ (out.face f).b < out.numCells) ∧ (out.face f).a ≠ (out.face f).b
  /-- The points of a face exist. -/
  points : ∀ f, f < out.grid.nf → ∀ p ∈ (out.face f).nodes, 0 ≤ p ∧ p < out.grid.nn
  /-- Faces between columns of cells are polygons with three to six different points. -/
  simple : ∀ f, f < out.grid.nf → out.tag f < 2 → (out.face f).nodes.Nodup ∧ 3 ≤ (out.face f).nodes.length ∧ (out.face f).nodes.length ≤ 6
  /-- Every cell has exactly one face at its top and one at its bottom, with the corners there. -/
  top : ∀ n i j k, out.IsCellAt inp n i j k → (∃ f, f < out.grid.nf ∧ out.tag f = 2 ∧ (out.face f).b = n ∧ (out.face f).nodes = cornerRing num (inp.area < 0) i j k 0) ∧
    ∀ f f', f < out.grid.nf → f' < out.grid.nf → out.tag f = 2 → out.tag f' = 2 → (out.face f).b = n → (out.face f').b = n → f = f'
  bottom : ∀ n i j k, out.IsCellAt inp n i j k → (∃ f, f < out.grid.nf ∧ out.tag f = 2 ∧ (out.face f).a = n ∧ (out.face f).nodes = cornerRing num (inp.area < 0) i j k 1) ∧
    ∀ f f', f < out.grid.nf → f' < out.grid.nf → out.tag f = 2 → out.tag f' = 2 → (out.face f).a = n → (out.face f').a = n → f = f'
  /-- The cells above and below a face of tag 2 are in one column, the first above the second, and the bottom of the first is the top of the second.  Two such cells always
  have a face in common. -/
  stacked : ∀ n i j k n' i' j' k', out.IsCellAt inp n i j k → out.IsCellAt inp n' i' j' k' →
    ((∃ f, f < out.grid.nf ∧ out.tag f = 2 ∧ (out.face f).a = n ∧ (out.face f).b = n') ↔
      i = i' ∧ j = j' ∧ k < k' ∧ ∀ a b, a < 2 → b < 2 → num (2 * i + a) (2 * j + b) (2 * k + 1) = num (2 * i + a) (2 * j + b) (2 * k'))
  /-- Cells of neighbouring columns have a face in common if and only if their sides have a part in common; they never have two. -/
  sides : ∀ dir n i j k n' i' j' k', dir < 2 → out.IsCellAt inp n i j k → out.IsCellAt inp n' i' j' k' →
    ((∃ f, f < out.grid.nf ∧ out.tag f = dir ∧ (out.face f).a = n ∧ (out.face f).b = n') ↔
      NextTo dir i j i' j' ∧ SidesMeet (fun I J K => s * (ptOf out.coords (num I J K).toNat).z) dir i j k i' j' k')
  once : ∀ f f', f < out.grid.nf → f' < out.grid.nf → out.tag f = out.tag f' → (out.face f).a = (out.face f').a → (out.face f).b = (out.face f').b → (out.face f).a ≠ -1 →
    (out.face f).b ≠ -1 → f = f'
  /-- The other nodes are points where sides of neighbouring columns cross. -/
  crossing : ∀ k, out.grid.np ≤ k → k < out.grid.nn → ∃ k0 k1 k2 k3, k0 < out.grid.np ∧ k1 < out.grid.np ∧ k2 < out.grid.np ∧ k3 < out.grid.np ∧
    CrossPoint (ptOf out.coords k0) (ptOf out.coords k1) (ptOf out.coords k2) (ptOf out.coords k3) (ptOf out.coords k)

/-- Cell column `(i, j)` is filled: all its cells are active, each begins where the one above it ends, and it is more than `2 tol` high at each of its corners. -/
def Input.Filled (inp : Input) (s : Int) (tol : Rat) (i j : Nat) : Prop :=
  (∀ k, k < inp.nz → inp.Active i j k) ∧ ∀ a b, a < 2 → b < 2 →
    (∀ k, k + 1 < inp.nz → inp.z (2 * i + a) (2 * j + b) (2 * k + 1) = inp.z (2 * i + a) (2 * j + b) (2 * k + 2)) ∧
    2 * tol < s * inp.z (2 * i + a) (2 * j + b) (2 * inp.nz - 1) - s * inp.z (2 * i + a) (2 * j + b) 0

/-- The lines between the active cells of column `(i, j)` and those of column `(i', j')`, its neighbour in direction `dir`, do not cross: none is above another on one pillar
and below it on the other. -/
def Input.NoCross (inp : Input) (s : Int) (dir i j i' j' : Nat) : Prop :=
  ∀ K L, K < 2 * inp.nz → L < 2 * inp.nz → inp.Active i j (K / 2) → inp.Active i' j' (L / 2) →
    ¬ (s * inp.z (sideCols dir 1 i j).1.1 (sideCols dir 1 i j).1.2 K < s * inp.z (sideCols dir 0 i' j').1.1 (sideCols dir 0 i' j').1.2 L ∧
      s * inp.z (sideCols dir 0 i' j').2.1 (sideCols dir 0 i' j').2.2 L < s * inp.z (sideCols dir 1 i j).2.1 (sideCols dir 1 i j).2.2 K) ∧
    ¬ (s * inp.z (sideCols dir 0 i' j').1.1 (sideCols dir 0 i' j').1.2 L < s * inp.z (sideCols dir 1 i j).1.1 (sideCols dir 1 i j).1.2 K ∧
      s * inp.z (sideCols dir 1 i j).2.1 (sideCols dir 1 i j).2.2 K < s * inp.z (sideCols dir 0 i' j').2.1 (sideCols dir 0 i' j').2.2 L)

end Opm.Cpg
