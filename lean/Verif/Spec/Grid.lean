import Verif.Model.Grid
import Verif.Spec.Graph
/-!
# Valid meshes

What the documentation of `struct UnstructuredGrid` (opm/core/grid.h:112–157) promises about the
topology of a grid.
-/

namespace Opm

open Graph

/-- `f` is listed among the faces of cell `c`. -/
def GridTopo.HasFace (g : GridTopo) (c f : Nat) : Prop := Edge g.cellFacepos g.cellFaces c f

/-- The two entries of `face_cells` for face `f` are `a` and `b`. -/
def GridTopo.Sides (g : GridTopo) (f : Nat) (a b : Int) : Prop :=
  g.faceCells[2 * f]? = some a ∧ g.faceCells[2 * f + 1]? = some b

/-- A valid mesh: cells list valid faces, faces list valid cells, the two lists agree, no face has
the same cell on both sides, and no cell lists a face twice. -/
structure GridTopo.Valid (g : GridTopo) : Prop where
  csr : CSR g.nc g.nf g.cellFacepos g.cellFaces
  fcLen : g.faceCells.length = 2 * g.nf
  fcRange : ∀ c ∈ g.faceCells, c = -1 ∨ (0 ≤ c ∧ c < g.nc)
  agree : ∀ c f a b, g.Sides f a b → (g.HasFace c f ↔ (a = (c : Int) ∨ b = (c : Int)))
  distinct : ∀ f a b, g.Sides f a b → 0 ≤ a → a ≠ b
  once : ∀ c a b e e' f, g.cellFacepos[c]? = some a → g.cellFacepos[c + 1]? = some b →
    a ≤ e → e < b → a ≤ e' → e' < b → g.cellFaces[e]? = some f → g.cellFaces[e']? = some f → e = e'

/-- Through face `f`, fluid flows from cell `u` to cell `d`: both sides are cells and the flux,
counted positive from the first side to the second, has the matching sign. -/
def GridTopo.Flow (g : GridTopo) (flux : List Rat) (u d : Nat) (f : Nat) : Prop :=
  ∃ q, flux[f]? = some q ∧
    ((0 < q ∧ g.Sides f u d) ∨ (q < 0 ∧ g.Sides f d u))

/-- Fluid flows directly from `u` into `d`. -/
def GridTopo.FlowsTo (g : GridTopo) (flux : List Rat) (u d : Nat) : Prop := ∃ f, g.Flow flux u d f

end Opm
