import Verif.Model.Preprocess
import Verif.Spec.FaceTopology
/-!
# Corner-point grids: specification of faces and cells

Column `(X, Y)`, `X < 2 nx`, `Y < 2 ny`, holds the point numbers of the corners of the cells `(X/2, Y/2, ·)` on pillar `((X+1)/2, (Y+1)/2)`, one above and one below added:
entries `2k + 1` and `2k + 2` are the top and the bottom of cell `k`.
-/

namespace Opm.Cpg
open Opm UniquePoints

/-- `plist` holds the columns `col`.  The points of pillar `q` have numbers `start q, …, start (q + 1) - 1`. -/
structure Columns (nx ny nz np : Nat) (plist : List Int) (col : Nat → Nat → Nat → Int) (act : Nat → Nat → Nat → Prop) (start : Nat → Nat) : Prop where
  get : ∀ X Y K, X < 2 * nx → Y < 2 * ny → K < 2 * nz + 2 → plist[(2 + 2 * nz) * (X + 2 * nx * Y) + K]? = some (col X Y K)
  top : ∀ X Y, X < 2 * nx → Y < 2 * ny → col X Y 0 = intMin
  bottom : ∀ X Y, X < 2 * nx → Y < 2 * ny → col X Y (2 * nz + 1) = intMax
  mono : ∀ X Y K, X < 2 * nx → Y < 2 * ny → K < 2 * nz + 1 → col X Y K ≤ col X Y (K + 1)
  active : ∀ X Y k, X < 2 * nx → Y < 2 * ny → k < nz → act (X / 2) (Y / 2) k → intMin < col X Y (2 * k + 1) ∧ col X Y (2 * k + 2) < intMax
  void : ∀ X Y K, X < 2 * nx → Y < 2 * ny → K < 2 * nz → ¬ act (X / 2) (Y / 2) (K / 2) → col X Y (K + 1) = col X Y K
  number : ∀ X Y K, X < 2 * nx → Y < 2 * ny → K < 2 * nz + 2 → col X Y K = intMin ∨ col X Y K = intMax ∨
    ∃ k : Nat, col X Y K = k ∧ start ((X + 1) / 2 + (nx + 1) * ((Y + 1) / 2)) ≤ k ∧ k < start ((X + 1) / 2 + (nx + 1) * ((Y + 1) / 2) + 1)
  above : ∀ X Y X' Y' K, X < 2 * nx → Y < 2 * ny → X' < 2 * nx → Y' < 2 * ny → K < 2 * nz + 2 → X / 2 = X' / 2 → Y / 2 = Y' / 2 → col X Y K = intMin → col X' Y' K = intMin
  below : ∀ X Y K, X < 2 * nx → Y < 2 * ny → K < 2 * nz + 1 → col X Y K < intMax
  mono' : ∀ q, q < (nx + 1) * (ny + 1) → start q ≤ start (q + 1)
  total : start ((nx + 1) * (ny + 1)) = np

/-- The side of cell column `(i, j)` with lower (`s = 0`) or higher (`s = 1`) first (`dir = 0`) or second (`dir = 1`) index, as a stack of layers. -/
def sideStack (col : Nat → Nat → Nat → Int) (dir s i j : Nat) : Stack :=
  if dir = 0 then ⟨col (2 * i + s) (2 * j), col (2 * i + s) (2 * j + 1)⟩ else ⟨col (2 * i + 1) (2 * j + s), col (2 * i) (2 * j + s)⟩

/-- The cell column on the lower side of the pair of pillars `(i, j)` for direction `dir`, if there is one. -/
def lowCol (dir i j : Nat) : Option (Nat × Nat) :=
  if dir = 0 then (if i = 0 then none else some (i - 1, j)) else (if j = 0 then none else some (i, j - 1))

/-- The cell column on the higher side. -/
def highCol (nx ny i j : Nat) : Option (Nat × Nat) := if i < nx ∧ j < ny then some (i, j) else none

/-- The two stacks that meet at the pair of pillars `(i, j)`; on the boundary of the grid the stack outside is taken to be the same as the one inside. -/
def lowStack (col : Nat → Nat → Nat → Int) (dir i j : Nat) : Stack :=
  match lowCol dir i j with
  | some (a, b) => sideStack col dir 1 a b
  | none => sideStack col dir 0 i j

def highStack (nx ny : Nat) (col : Nat → Nat → Nat → Int) (dir i j : Nat) : Stack :=
  match highCol nx ny i j with
  | some (a, b) => sideStack col dir 0 a b
  | none => lowStack col dir i j

/-- Number of cell `k` of a cell column; `-1` for a gap, or outside the grid. -/
def cellIn (nx ny : Nat) (c : Option (Nat × Nat)) (k : Int) : Int :=
  match c with
  | some (a, b) => if k = -1 then -1 else a + nx * (b + ny * k)
  | none => -1

/-- The cell numbers of a face are made global. -/
def Face.glob (nx ny : Nat) (lo hi : Option (Nat × Nat)) (f : Face) : Face := ⟨cellIn nx ny lo f.a, cellIn nx ny hi f.b, f.nodes⟩

/-- There are not more crossings than faces.  (The code that reserves memory only counts faces.) -/
def Tame (A B : Stack) (n : Nat) : Prop := ∀ base fs qs, Connections A B n base fs qs → qs.length ≤ fs.length

/-- Number of cells of a stack of `n` lines that are not empty. -/
def Stack.cells (A : Stack) (n : Nat) : Nat := (List.range (n - 1)).countP (fun i => decide (IsCell i ∧ ¬ A.Empty i))

/-- Number of gaps between cells that are not empty; the spaces above and below all cells do not count. -/
def Stack.gaps (A : Stack) (n : Nat) : Nat := (List.range (n - 1)).countP (fun i => decide (¬ IsCell i ∧ 0 < i ∧ i < n - 2 ∧ ¬ A.Empty i))

/-- The pairs of neighbouring pillars that bound sides of direction `dir`, in the order in which they are visited. -/
def pairsOf (nx ny dir : Nat) : List (Nat × Nat × Nat) := (List.range (ny + dir)).flatMap (fun j => (List.range (nx + (1 - dir))).map (fun i => (dir, i, j)))

/-- The faces, their tags and the crossings found at a list of pairs of pillars, one after another.  Crossings are numbered consecutively from `np`. -/
inductive SideFaces (nx ny nz np : Nat) (col : Nat → Nat → Nat → Int) : List (Nat × Nat × Nat) → List Face → List Nat → List (List Int) → Prop
  | nil : SideFaces nx ny nz np col [] [] [] []
  | snoc {ps fs ts qs dir i j gs xs} : SideFaces nx ny nz np col ps fs ts qs →
      Connections (lowStack col dir i j) (highStack nx ny col dir i j) (2 * nz + 2) (np + qs.length) gs xs →
      SideFaces nx ny nz np col (ps ++ [(dir, i, j)]) (fs ++ gs.map (Face.glob nx ny (lowCol dir i j) (highCol nx ny i j))) (ts ++ List.replicate gs.length dir) (qs ++ xs)

/-- The numbers of the four corners of cell column `(i, j)` on line `K`. -/
def level (col : Nat → Nat → Nat → Int) (i j K : Nat) : List Int :=
  [col (2 * i) (2 * j) K, col (2 * i) (2 * j + 1) K, col (2 * i + 1) (2 * j) K, col (2 * i + 1) (2 * j + 1) K]

/-- Layer `K` of cell column `(i, j)` is collapsed: the corners of its top and of its bottom are the same. -/
def Collapsed (col : Nat → Nat → Nat → Int) (i j K : Nat) : Prop := level col i j K = level col i j (K + 1)

instance (col : Nat → Nat → Nat → Int) (i j K : Nat) : Decidable (Collapsed col i j K) := by unfold Collapsed; infer_instance

/-- The corners on line `K`, once around. -/
def ring (col : Nat → Nat → Nat → Int) (i j K : Nat) : List Int :=
  [col (2 * i) (2 * j) K, col (2 * i + 1) (2 * j) K, col (2 * i + 1) (2 * j + 1) K, col (2 * i) (2 * j + 1) K]

/-- Cartesian number of cell `(i, j, k)`. -/
def cartesian (nx ny i j k : Nat) : Nat := i + nx * (j + ny * k)

/-- Cartesian number of the cell of layer `K` of cell column `(i, j)`; `-1` for a gap. -/
def layerCell (nx ny i j K : Nat) : Int := if IsCell K then (cartesian nx ny i j (K / 2) : Int) else -1

/-- Layer `L` lies directly above layer `K`: only collapsed layers are between them. -/
def DirectlyAbove (col : Nat → Nat → Nat → Int) (i j L K : Nat) : Prop :=
  L < K ∧ ¬ Collapsed col i j L ∧ ¬ Collapsed col i j K ∧ ∀ M, L < M → M < K → Collapsed col i j M

/-- The horizontal faces of cell column `(i, j)`, downwards: one between each two layers of which one is directly above the other, unless both are gaps. -/
def StackFaces (nx ny nz : Nat) (col : Nat → Nat → Nat → Int) (i j : Nat) (gs : List Face) : Prop :=
  ∃ ps : List (Nat × Nat), ps.Pairwise (fun x y => x.2 < y.2) ∧
    (∀ L K, (L, K) ∈ ps ↔ K ≤ 2 * nz ∧ DirectlyAbove col i j L K ∧ (IsCell L ∨ IsCell K)) ∧
    gs = ps.map (fun x => ⟨layerCell nx ny i j x.1, layerCell nx ny i j x.2, ring col i j x.2⟩)

/-- The horizontal faces of a list of cell columns. -/
inductive TopFaces (nx ny nz : Nat) (col : Nat → Nat → Nat → Int) : List (Nat × Nat) → List Face → Prop
  | nil : TopFaces nx ny nz col [] []
  | snoc {ps fs i j gs} : TopFaces nx ny nz col ps fs → StackFaces nx ny nz col i j gs → TopFaces nx ny nz col (ps ++ [(i, j)]) (fs ++ gs)

/-- All cell columns in the order in which they are visited. -/
def columnsOf (nx ny : Nat) : List (Nat × Nat) := (List.range ny).flatMap (fun j => (List.range nx).map (fun i => (i, j)))

/-- The cell with Cartesian number `c` is not collapsed. -/
def Solid (nx ny : Nat) (col : Nat → Nat → Nat → Int) (c : Nat) : Prop := ¬ Collapsed col (c % nx) (c / nx % ny) (2 * (c / nx / ny) + 1)

instance (nx ny : Nat) (col : Nat → Nat → Nat → Int) (c : Nat) : Decidable (Solid nx ny col c) := by unfold Solid; infer_instance

/-- The cells of the processed grid: those that are not collapsed, by increasing Cartesian number. -/
def solidCells (nx ny nz : Nat) (col : Nat → Nat → Nat → Int) : List Nat := (List.range (nx * ny * nz)).filter (fun c => decide (Solid nx ny col c))

/-- The number a cell gets in the processed grid: its position among the cells that are not collapsed.  `-1` stays `-1`. -/
def compressed (cells : List Nat) (c : Int) : Int := if c = -1 then -1 else (cells.idxOf c.toNat : Int)

/-- A face with the numbers of cells in the processed grid. -/
def Face.renumber (cells : List Nat) (f : Face) : Face := ⟨compressed cells f.a, compressed cells f.b, f.nodes⟩

/-- A face with its points in the opposite order. -/
def Face.reversed (f : Face) : Face := ⟨f.a, f.b, f.nodes.reverse⟩

/-- The arrays of the input have the sizes its dimensions ask for. -/
structure Input.Ok (inp : Input) : Prop where
  nx : 0 < inp.nx
  ny : 0 < inp.ny
  nz : 0 < inp.nz
  coord : inp.coord.length = 6 * ((inp.nx + 1) * (inp.ny + 1))
  zcorn : inp.zcorn.length = 2 * inp.nx * (2 * inp.ny) * (2 * inp.nz)
  actnum : ∀ a, inp.actnum = some a → a.length = inp.nx * inp.ny * inp.nz

/-- Depth of corner `(I, J, K)`, as given. -/
def Input.z (inp : Input) (I J K : Nat) : Rat := inp.zcorn.getD (I + 2 * inp.nx * (J + 2 * inp.ny * K)) 0

/-- Cell `(i, j, k)` is active.  Without activity flags all cells are. -/
def Input.Active (inp : Input) (i j k : Nat) : Prop :=
  match inp.actnum with
  | none => True
  | some a => a.getD (cartesian inp.nx inp.ny i j k) 0 ≠ 0

instance (inp : Input) (i j k : Nat) : Decidable (inp.Active i j k) := by unfold Input.Active; cases inp.actnum <;> infer_instance

/-- Between corners that follow each other downwards, both of active cells, depth times `sign` does not decrease. -/
def Input.Downward (inp : Input) (sign : Int) : Prop :=
  ∀ I J K, I < 2 * inp.nx → J < 2 * inp.ny → K + 1 < 2 * inp.nz → inp.Active (I / 2) (J / 2) (K / 2) → inp.Active (I / 2) (J / 2) ((K + 1) / 2) →
    sign * inp.z I J K ≤ sign * inp.z I J (K + 1)

/-- Cell `(i, j, k)` has a corner at which its top and its bottom have different depths. -/
def Input.Thick (inp : Input) (i j k : Nat) : Prop := ∃ a b, a < 2 ∧ b < 2 ∧ inp.z (2 * i + a) (2 * j + b) (2 * k) ≠ inp.z (2 * i + a) (2 * j + b) (2 * k + 1)

/-- Cross product of the vectors, in the horizontal plane, from the first pillar to the last one in the first and in the second direction. -/
def Input.area (inp : Input) : Rat :=
  (inp.coord.getD (6 * inp.nx) 0 - inp.coord.getD 0 0) * (inp.coord.getD (6 * ((inp.nx + 1) * inp.ny) + 1) 0 - inp.coord.getD 1 0) -
    (inp.coord.getD (6 * ((inp.nx + 1) * inp.ny)) 0 - inp.coord.getD 0 0) * (inp.coord.getD (6 * inp.nx + 1) 0 - inp.coord.getD 1 0)

/-- A point in space. -/
structure Pt where
  x : Rat
  y : Rat
  z : Rat
  deriving DecidableEq

/-- Point `k` of an array of coordinates. -/
def ptOf (c : List Rat) (k : Nat) : Pt := ⟨c.getD (3 * k) 0, c.getD (3 * k + 1) 0, c.getD (3 * k + 2) 0⟩

/-- `p` is the point where a line from `p0` to `p1` and one from `p2` to `p3` cross, `p0` and `p2` being on one pillar, `p1` and `p3` on another.  At the same distance `a` between
the pillars both lines have the depth of `p`; `p` is on the segment, at that distance, between the points of that depth on the lines `p0 p2` and `p1 p3`. -/
def CrossPoint (p0 p1 p2 p3 p : Pt) : Prop :=
  ∃ a b c : Rat, 0 < a ∧ a < 1 ∧ p.z = (1 - a) * p0.z + a * p1.z ∧ p.z = (1 - a) * p2.z + a * p3.z ∧ p.z = (1 - b) * p0.z + b * p2.z ∧ p.z = (1 - c) * p1.z + c * p3.z ∧
    p.x = (1 - a) * ((1 - b) * p0.x + b * p2.x) + a * ((1 - c) * p1.x + c * p3.x) ∧ p.y = (1 - a) * ((1 - b) * p0.y + b * p2.y) + a * ((1 - c) * p1.y + c * p3.y)

/-- The pillar of the corners in column `(X, Y)`. -/
def pillarAt (nx X Y : Nat) : Nat := (X + 1) / 2 + (nx + 1) * ((Y + 1) / 2)

/-- The ends of pillar `q`. -/
def Input.upper (inp : Input) (q : Nat) : Pt := ptOf inp.coord (2 * q)
def Input.lower (inp : Input) (q : Nat) : Pt := ptOf inp.coord (2 * q + 1)

/-- `p` is on the line through the two ends of pillar `q`; if these have the same depth, it is above or below the first. -/
def Input.OnPillar (inp : Input) (q : Nat) (p : Pt) : Prop :=
  ∃ a : Rat, p.x = (inp.upper q).x + a * ((inp.lower q).x - (inp.upper q).x) ∧ p.y = (inp.upper q).y + a * ((inp.lower q).y - (inp.upper q).y) ∧
    ((inp.upper q).z ≠ (inp.lower q).z → p.z = (inp.upper q).z + a * ((inp.lower q).z - (inp.upper q).z)) ∧ ((inp.upper q).z = (inp.lower q).z → a = 0)

/-- Along the active corners of column `(I, J)` depth times `s` does not decrease downwards, whatever inactive cells there may be in between. -/
def Input.Sorted (inp : Input) (s : Int) (I J : Nat) : Prop :=
  ∀ K K', K ≤ K' → K' < 2 * inp.nz → inp.Active (I / 2) (J / 2) (K / 2) → inp.Active (I / 2) (J / 2) (K' / 2) → s * inp.z I J K ≤ s * inp.z I J K'

/-- The points `start q, …, start (q + 1) - 1` on pillar `q`, more than `tol` apart, in the order of depth times `s`; the numbers of the corners of active cells:
in a sorted column, that of the first point that is not more than `tol` above the corner. -/
structure PillarPoints (inp : Input) (s : Int) (tol : Rat) (col : Nat → Nat → Nat → Int) (start : Nat → Nat) (pt : Nat → Pt) : Prop where
  apart : ∀ q k, q < (inp.nx + 1) * (inp.ny + 1) → start q ≤ k → k + 1 < start (q + 1) → s * (pt k).z + tol < s * (pt (k + 1)).z
  line : ∀ q k, q < (inp.nx + 1) * (inp.ny + 1) → start q ≤ k → k < start (q + 1) → inp.OnPillar q ⟨(pt k).x, (pt k).y, s * (pt k).z⟩
  mem : ∀ q k, q < (inp.nx + 1) * (inp.ny + 1) → start q ≤ k → k < start (q + 1) → ∃ I J K, I < 2 * inp.nx ∧ J < 2 * inp.ny ∧ K < 2 * inp.nz ∧
    inp.Active (I / 2) (J / 2) (K / 2) ∧ pillarAt inp.nx I J = q ∧ inp.z I J K = (pt k).z
  corner : ∀ I J K, I < 2 * inp.nx → J < 2 * inp.ny → K < 2 * inp.nz → inp.Active (I / 2) (J / 2) (K / 2) → ∃ k : Nat, col I J (K + 1) = k ∧
    start (pillarAt inp.nx I J) ≤ k ∧ k < start (pillarAt inp.nx I J + 1) ∧
    (inp.Sorted s I J → (pt k).z - inp.z I J K ≤ tol ∧ inp.z I J K - (pt k).z ≤ tol ∧
      ∀ m, start (pillarAt inp.nx I J) ≤ m → m < k → s * (pt m).z + tol < s * inp.z I J K)

/-- Faces as they are stored: with the numbers of cells in the processed grid, and with their points in the opposite order if `flip`. -/
def stored (cells : List Nat) (flip : Prop) [Decidable flip] (fs : List Face) : List Face :=
  fs.map (fun f => if flip then (f.renumber cells).reversed else f.renumber cells)

/-- `out` describes the grid given by `inp`.  `s` tells whether depths are given downwards (1) or upwards (-1); `np` points on pillars are numbered pillar by pillar,
beginning with `start`; corners have the numbers `col`; `fs` are the faces between columns of cells, with tags `ts`; `qs` are the crossings found there; `gs` are the
horizontal faces. -/
structure GridOf (inp : Input) (tol : Rat) (out : Output) (s : Int) (np : Nat) (start : Nat → Nat) (col : Nat → Nat → Nat → Int) (fs : List Face) (ts : List Nat)
    (qs : List (List Int)) (gs : List Face) : Prop where
  sign : s = 1 ∧ inp.Downward 1 ∨ s = -1 ∧ ¬ inp.Downward 1 ∧ inp.Downward (-1)
  first : start 0 = 0
  columns : ∃ plist, Columns inp.nx inp.ny inp.nz np plist col inp.Active start
  points : PillarPoints inp s tol col start (ptOf out.coords)
  sides : SideFaces inp.nx inp.ny inp.nz np col (pairsOf inp.nx inp.ny 0 ++ pairsOf inp.nx inp.ny 1) fs ts qs
  tops : TopFaces inp.nx inp.ny inp.nz col (columnsOf inp.nx inp.ny) gs
  numCells : out.numCells = (solidCells inp.nx inp.ny inp.nz col).length
  cells : out.cells.take out.numCells = (solidCells inp.nx inp.ny inp.nz col).map (fun c : Nat => (c : Int))
  numFaces : out.grid.nf = fs.length + gs.length
  nbrs : out.grid.nbr.take (2 * out.grid.nf) = faceNbrs (stored (solidCells inp.nx inp.ny inp.nz col) (inp.area < 0) (fs ++ gs))
  ptr : out.grid.ptr.take (out.grid.nf + 1) = facePtr (stored (solidCells inp.nx inp.ny inp.nz col) (inp.area < 0) (fs ++ gs))
  nodes : out.grid.nodes.take (out.grid.ptr.getD out.grid.nf 0) = faceNodes (stored (solidCells inp.nx inp.ny inp.nz col) (inp.area < 0) (fs ++ gs))
  tags : out.grid.tag.take out.grid.nf = ts ++ List.replicate gs.length 2
  numNodes : out.grid.nn = np + qs.length
  coords : out.coords.length = 3 * out.grid.nn
  onPillars : out.grid.np = np
  crossings : ∀ m (k0 k1 k2 k3 : Nat), qs[m]? = some [(k0 : Int), (k1 : Int), (k2 : Int), (k3 : Int)] →
    CrossPoint (ptOf out.coords k0) (ptOf out.coords k1) (ptOf out.coords k2) (ptOf out.coords k3) (ptOf out.coords (np + m))

end Opm.Cpg
