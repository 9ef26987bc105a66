import Verif.Spec.Geometry
import Mathlib.Analysis.SpecialFunctions.Integrals.Basic
/-!
# Integrals of quadratic functions: specification

Integrals over triangles and tetrahedra are real integrals over a parametrisation of the simplex, times twice the area or six times the volume.
-/

namespace Opm.Quadrature
open Opm Opm.Geometry

/-- A polynomial of degree two in three variables. -/
structure Quad where
  one : Rat
  x : Rat
  y : Rat
  z : Rat
  xx : Rat
  yy : Rat
  zz : Rat
  xy : Rat
  xz : Rat
  yz : Rat
  deriving DecidableEq, Repr

/-- Its value. -/
def Quad.val {K : Type} [Add K] [Mul K] [RatCast K] (q : Quad) (x y z : K) : K :=
  (q.one : K) + (q.x : K) * x + (q.y : K) * y + (q.z : K) * z + (q.xx : K) * (x * x) + (q.yy : K) * (y * y) + (q.zz : K) * (z * z) + (q.xy : K) * (x * y) + (q.xz : K) * (x * z) +
    (q.yz : K) * (y * z)

/-- Its part of degree two. -/
def Quad.form (q : Quad) (v : V3) : Rat := q.xx * (v.x * v.x) + q.yy * (v.y * v.y) + q.zz * (v.z * v.z) + q.xy * (v.x * v.y) + q.xz * (v.x * v.z) + q.yz * (v.y * v.z)

/-- The polynomial at a point. -/
def Quad.at (q : Quad) (p : V3) : Rat := q.val p.x p.y p.z

/-- The integral over the line from `a` to `b` of the given length: all points `a + t·(b - a)` with `0 ≤ t ≤ 1`. -/
noncomputable def lineIntegral (length : Rat) (a b : V3) (q : Quad) : ℝ :=
  length * ∫ t in (0 : ℝ)..1, q.val ((a.x : ℝ) + t * ((b.x : ℝ) - a.x)) ((a.y : ℝ) + t * ((b.y : ℝ) - a.y)) ((a.z : ℝ) + t * ((b.z : ℝ) - a.z))

/-- The coordinate `c` of the point `o + u·(a - o) + v·(b - o)`. -/
noncomputable def along (c : V3 → Rat) (o a b : V3) (u v : ℝ) : ℝ := (c o : ℝ) + u * ((c a : ℝ) - c o) + v * ((c b : ℝ) - c o)

/-- The integral over the triangle with corners `o`, `a`, `b` and the given area: all points `o + u·(a - o) + v·(b - o)` with `0 ≤ u`, `0 ≤ v`, `u + v ≤ 1`. -/
noncomputable def triIntegral (area : Rat) (o a b : V3) (q : Quad) : ℝ :=
  2 * area * ∫ u in (0 : ℝ)..1, ∫ v in (0 : ℝ)..1 - u, q.val (along V3.x o a b u v) (along V3.y o a b u v) (along V3.z o a b u v)

/-- The coordinate `c` of the point `o + u·(a - o) + v·(b - o) + w·(d - o)`. -/
noncomputable def along3 (c : V3 → Rat) (o a b d : V3) (u v w : ℝ) : ℝ := (c o : ℝ) + u * ((c a : ℝ) - c o) + v * ((c b : ℝ) - c o) + w * ((c d : ℝ) - c o)

/-- The volume of a tetrahedron. -/
def tetVol (o a b d : V3) : Rat := |det (a - o) (b - o) (d - o)| / 6

/-- The integral over the tetrahedron with corners `o`, `a`, `b`, `d`: all points `o + u·(a - o) + v·(b - o) + w·(d - o)` with `0 ≤ u`, `0 ≤ v`, `0 ≤ w`, `u + v + w ≤ 1`. -/
noncomputable def tetIntegral (o a b d : V3) (q : Quad) : ℝ :=
  6 * tetVol o a b d * ∫ u in (0 : ℝ)..1, ∫ v in (0 : ℝ)..1 - u, ∫ w in (0 : ℝ)..1 - u - v,
    q.val (along3 V3.x o a b d u v w) (along3 V3.y o a b d u v w) (along3 V3.z o a b d u v w)

/-- A point of the plane. -/
def flat (p : Rat × Rat) : V3 := ⟨p.1, p.2, 0⟩

/-- The area of a triangle in the plane. -/
def area2 (o a b : Rat × Rat) : Rat := |(a.1 - o.1) * (b.2 - o.2) - (a.2 - o.2) * (b.1 - o.1)| / 2

end Opm.Quadrature
