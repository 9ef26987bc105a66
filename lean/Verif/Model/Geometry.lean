import Verif.Core.Mem
import Mathlib.Algebra.Order.Ring.Rat
/-!
# Geometry of faces and cells

Models `opm/core/grid/cpgpreprocess/geometry.c`.  Doubles are rationals, the square root is a parameter, and the constant `twothirds` is 2/3.  Short arrays for one point are points.  A division by zero, which in the code leaves
infinities or NaN in the results, ends the computation.
-/

namespace Opm.Geometry
open Opm

/-- `double x[3]`. -/
@[ext] structure V3 where
  x : Rat
  y : Rat
  z : Rat
  deriving DecidableEq, Repr

namespace V3

instance : Zero V3 := ⟨⟨0, 0, 0⟩⟩
instance : Add V3 := ⟨fun a b => ⟨a.x + b.x, a.y + b.y, a.z + b.z⟩⟩
instance : Sub V3 := ⟨fun a b => ⟨a.x - b.x, a.y - b.y, a.z - b.z⟩⟩
instance : Neg V3 := ⟨fun a => ⟨-a.x, -a.y, -a.z⟩⟩

/-- Multiple of a vector. -/
def smul (r : Rat) (a : V3) : V3 := ⟨r * a.x, r * a.y, r * a.z⟩

/-- Product of two vectors, as in `tet_volume` and `subnormal_sign`. -/
def dot (a b : V3) : Rat := a.x * b.x + a.y * b.y + a.z * b.z

/-- Models: `geometry.c:12-19`. -/
def cross (u v : V3) : V3 := ⟨u.y * v.z - u.z * v.y, u.z * v.x - u.x * v.z, u.x * v.y - u.y * v.x⟩

end V3

open V3

/-- Models: `geometry.c:22-28`. -/
def norm (sqrt : Rat → Rat) (w : V3) : Rat := sqrt (w.x * w.x + w.y * w.y + w.z * w.z)

/-- Coordinates of a point of an array. -/
def readV (a : List Rat) (k : Nat) : M V3 := do
  let x ← rd a (3 * k)
  let y ← rd a (3 * k + 1)
  let z ← rd a (3 * k + 2)
  .ok ⟨x, y, z⟩

/-- Coordinates written to an array. -/
def writeV (a : List Rat) (k : Nat) (v : V3) : M (List Rat) := do
  let a ← wr a (3 * k) v.x
  let a ← wr a (3 * k + 1) v.y
  wr a (3 * k + 2) v.z

/-- Nodes of a face or faces of a cell, given by positions.  Models the loops over `nodepos[f]..nodepos[f+1]` and `facepos[c]..facepos[c+1]`, which read their data again each time. -/
def entries (pos idx : List Nat) (f : Nat) : M (List Nat) := do
  let a ← rd pos f
  let b ← rd pos (f + 1)
  forRange a b (fun k l => do
    let n ← rd idx k
    .ok (l ++ [n])) []

/-- Points with given numbers. -/
def points (a : List Rat) (l : List Nat) : M (List V3) := l.foldlM (fun s n => do
  let p ← readV a n
  .ok (s ++ [p])) []

/-- Mean of points.  Without points it is 0/0.  Models: `geometry.c:70-76`, `:259-265`, `:283-290`. -/
def mean (l : List V3) : M V3 :=
  if l.length = 0 then .error .nonFinite
  else .ok (smul (1 / l.length) (l.foldl (· + ·) 0))

/-- Pairs of consecutive vectors, beginning with `u` before the first.  Models the variables `u` and `v` of `geometry.c:81-113`, `:294-344`. -/
def fan (u : V3) : List V3 → List (V3 × V3)
  | [] => []
  | v :: l => (u, v) :: fan v l

/-- Sums over the triangles of a face. -/
structure FaceSum where
  area : Rat := 0
  n : V3 := 0
  c : V3 := 0
  deriving DecidableEq, Repr

/-- One triangle.  Models: `geometry.c:93-110`. -/
def FaceSum.add (sqrt : Rat → Rat) (x : V3) (s : FaceSum) (e : V3 × V3) : FaceSum :=
  let w := cross e.1 e.2
  let a := 1 / 2 * norm sqrt w
  ⟨s.area + a, s.n + w, s.c + smul a (x + smul (2 / 3 * (1 / 2)) (e.1 + e.2))⟩

/-- Normal, centroid and area of a face.  Models: `geometry.c:64-123`. -/
def faceGeom (sqrt : Rat → Rat) (pts : List V3) : M (V3 × V3 × Rat) := do
  let x ← mean pts
  let s := (fan (pts.getLastD 0 - x) (pts.map (· - x))).foldl (FaceSum.add sqrt x) {}
  if s.area = 0 then .error .nonFinite
  else .ok (smul (1 / 2) s.n, smul (1 / s.area) s.c, s.area)

/-- Results for faces. -/
structure FaceArrays where
  normals : List Rat
  centroids : List Rat
  areas : List Rat
  deriving DecidableEq, Repr

/-- `compute_face_geometry_3d`.  Models: `geometry.c:31-125`. -/
def faceGeometry (sqrt : Rat → Rat) (coords : List Rat) (nfaces : Nat) (nodepos facenodes : List Nat) (r : FaceArrays) : M FaceArrays :=
  loop nfaces (fun f r => do
    let l ← entries nodepos facenodes f
    let pts ← points coords l
    let g ← faceGeom sqrt pts
    let n ← writeV r.normals f g.1
    let c ← writeV r.centroids f g.2.1
    let a ← wr r.areas f g.2.2
    .ok ⟨n, c, a⟩) r

/-- What is used of a face of a cell: its points, its normal, and whether the cell is its first neighbour. -/
structure CellFace where
  pts : List V3
  normal : V3
  first : Bool
  deriving DecidableEq, Repr

/-- Volume and moment. -/
structure CellSum where
  volume : Rat := 0
  c : V3 := 0
  deriving DecidableEq, Repr

/-- Signed volume of the tetrahedron over a triangle.  Models: `geometry.c:303-324`. -/
def tetVolume (xcell x : V3) (f : CellFace) (e : V3 × V3) : Rat :=
  let w := cross e.1 e.2
  let t := dot w (x - xcell) * (1 / 2 / 3)
  let t := if dot w f.normal < 0 then -t else t
  if f.first then t else -t

/-- One triangle.  Models: `geometry.c:303-333`. -/
def CellSum.add (xcell x : V3) (f : CellFace) (s : CellSum) (e : V3 × V3) : CellSum :=
  let t := tetVolume xcell x f e
  ⟨s.volume + t, s.c + smul (t * 3 / 4) (x + smul (2 / 3 * (1 / 2)) (e.1 + e.2) - xcell)⟩

/-- One face.  Models: `geometry.c:274-345`. -/
def CellSum.face (xcell : V3) (s : CellSum) (f : CellFace) : M CellSum := do
  let x ← mean f.pts
  .ok ((fan (f.pts.getLastD 0 - x) (f.pts.map (· - x))).foldl (CellSum.add xcell x f) s)

/-- Centroid and volume of a cell.  Models: `geometry.c:246-349`. -/
def cellGeom (centroids : List V3) (fs : List CellFace) : M (V3 × Rat) := do
  let xcell ← mean centroids
  let s ← fs.foldlM (CellSum.face xcell) {}
  if s.volume = 0 then .error .nonFinite
  else .ok (xcell + smul (1 / s.volume) s.c, s.volume)

/-- Reads what is used of a face. -/
def readFace (coords : List Rat) (nodepos facenodes : List Nat) (neighbors : List Int) (normals : List Rat) (c face : Nat) : M CellFace := do
  let l ← entries nodepos facenodes face
  let pts ← points coords l
  let n ← readV normals face
  let nb ← rd neighbors (2 * face)
  .ok ⟨pts, n, decide (nb = (c : Int))⟩

/-- `compute_cell_geometry_3d`.  Models: `geometry.c:216-351`. -/
def cellGeometry (coords : List Rat) (nodepos facenodes : List Nat) (neighbors : List Int) (normals centroids : List Rat) (ncells : Nat) (facepos cellfaces : List Nat) (r : List Rat × List Rat) : M (List Rat × List Rat) :=
  loop ncells (fun c r => do
    let l ← entries facepos cellfaces c
    let cs ← points centroids l
    let fs ← l.foldlM (fun s face => do
      let f ← readFace coords nodepos facenodes neighbors normals c face
      .ok (s ++ [f])) []
    let g ← cellGeom cs fs
    let cc ← writeV r.1 c g.1
    let cv ← wr r.2 c g.2
    .ok (cc, cv)) r

/-! ### Two dimensions -/

/-- Reads a point of the plane. -/
def readP (a : List Rat) (k : Nat) : M (Rat × Rat) := do
  let x ← rd a (k * 2)
  let y ← rd a (k * 2 + 1)
  .ok (x, y)

/-- Writes a point of the plane. -/
def writeP (a : List Rat) (k : Nat) (v : Rat × Rat) : M (List Rat) := do
  let a ← wr a (k * 2) v.1
  wr a (k * 2 + 1) v.2

/-- End points of an edge. -/
def edgeEnds (coords : List Rat) (pos nodes : List Nat) (e : Nat) : M ((Rat × Rat) × (Rat × Rat)) := do
  let p ← rd pos e
  let a ← rd nodes p
  let b ← rd nodes (p + 1)
  let pa ← readP coords a
  let pb ← readP coords b
  .ok (pa, pb)

/-- `compute_edge_geometry_2d`.  Models: `geometry.c:128-188`. -/
def edgeGeometry (sqrt : Rat → Rat) (coords : List Rat) (n : Nat) (pos nodes : List Nat) (r : FaceArrays) : M FaceArrays :=
  loop n (fun e r => do
    let p ← rd pos e
    let q ← rd pos (e + 1)
    check (decide ((q : Int) - p = 2))
    let ab ← edgeEnds coords pos nodes e
    let m ← writeP r.centroids e ((ab.1.1 + ab.2.1) * (1 / 2), (ab.1.2 + ab.2.2) * (1 / 2))
    let v := (ab.2.1 - ab.1.1, ab.2.2 - ab.1.2)
    let nrm ← writeP r.normals e (v.2, -v.1)
    let l ← wr r.areas e (sqrt (v.1 * v.1 + v.2 * v.2))
    .ok ⟨nrm, m, l⟩) r

/-- Sum of points of the plane divided by their number. -/
def meanP (l : List (Rat × Rat)) : M (Rat × Rat) :=
  if l.length = 0 then .error .nonFinite
  else
    let s := l.foldl (fun s p => (s.1 + p.1, s.2 + p.2)) (0, 0)
    .ok (s.1 / l.length, s.2 / l.length)

/-- Twice the area of the triangle of an edge and the centre.  Models: `geometry.c:411-427`. -/
def edgeArea (c : Rat × Rat) (e : (Rat × Rat) × (Rat × Rat)) : Rat := |(e.1.1 - c.1) * (e.2.2 - c.2) - (e.1.2 - c.2) * (e.2.1 - c.1)|

/-- Centre and area of a cell.  Models: `geometry.c:383-432`. -/
def polygon (mids : List (Rat × Rat)) (es : List ((Rat × Rat) × (Rat × Rat))) : M ((Rat × Rat) × Rat) := do
  let c ← meanP mids
  .ok (c, es.foldl (fun a e => a + edgeArea c e) 0 * (1 / 2))

/-- `compute_cell_geometry_2d`.  Models: `geometry.c:354-434`. -/
def cellGeometry2 (coords : List Rat) (pos nodes : List Nat) (mids : List Rat) (ncells : Nat) (facepos cellfaces : List Nat) (r : List Rat × List Rat) : M (List Rat × List Rat) :=
  loop ncells (fun c r => do
    let l ← entries facepos cellfaces c
    let ms ← l.foldlM (fun s e => do
      let m ← readP mids e
      .ok (s ++ [m])) []
    let es ← l.foldlM (fun s e => do
      let ab ← edgeEnds coords pos nodes e
      .ok (s ++ [ab])) []
    let g ← polygon ms es
    let cc ← writeP r.1 c g.1
    let cv ← wr r.2 c g.2
    .ok (cc, cv)) r

end Opm.Geometry
