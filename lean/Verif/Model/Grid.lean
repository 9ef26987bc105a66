import Verif.Core.Mem
import Mathlib.Data.Rat.Defs
/-!
# Model of the mesh topology in `opm/core/grid.h`
-/

namespace Opm

/-- The topological part of `struct UnstructuredGrid`, opm/core/grid.h:99–235 (geometry is modelled
where it is used).  `faceCells` has two entries per face, `-1` meaning "outside"; row `c` of the
compressed-row pair `cellFacepos`, `cellFaces` lists the faces of cell `c`. -/
structure GridTopo where
  nc : Nat
  nf : Nat
  faceCells : List Int
  cellFacepos : List Nat
  cellFaces : List Nat
  deriving DecidableEq, Repr

end Opm
