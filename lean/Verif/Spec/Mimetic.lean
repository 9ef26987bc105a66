import Mathlib.Algebra.Order.Field.Basic
import Verif.Spec.Hybsys
import Verif.Model.Mimetic
/-!
# Mimetic inner products: specification

In cell `c` with half faces `i`: `N c i` is the normal vector, pointing out of the cell, whose length is the area `A c i` of the face; `C c i` is the vector from the centre of the cell to that of the face.
-/

namespace Opm.Mimetic
open Opm.Hybsys (deg off2 face)

variable {K : Type} [Field K] [DecidableEq K]

/-- Entry `(i, j)` of the inverse inner product of cell `c`. -/
def ipK (pconn : List Nat) (Binv : List K) (c i j : Nat) : K := Binv.getD (off2 pconn c + (i + j * deg pconn c)) 0

/-- The outward normal of half face `i` of cell `c`, component `k`. -/
def normal (d : Nat) (pconn conn : List Nat) (g : Geo K) (c i k : Nat) : K :=
  (if g.fneighbour[2 * face pconn conn c i]? = some (c : Int) then 1 else -1) * g.fnormal.getD (k + face pconn conn c i * d) 0

/-- The vector from the centre of the cell to that of the half face. -/
def arm (d : Nat) (pconn conn : List Nat) (g : Geo K) (c i k : Nat) : K := g.fcentroid.getD (k + face pconn conn c i * d) 0 - g.ccentroid.getD (k + c * d) 0

/-- The area of the half face. -/
def area (pconn conn : List Nat) (g : Geo K) (c i : Nat) : K := g.farea.getD (face pconn conn c i) 0

/-- Entry `(k, l)` of the permeability of cell `c`. -/
def permOf (d : Nat) (g : Geo K) (c k l : Nat) : K := g.perm.getD (c * d * d + (k + l * d)) 0

/-- The arrays have their sizes; the dimension is 1, 2 or 3; `mx` bounds the numbers of half faces. -/
structure MeshOk (nc nf d mx : Nat) (pconn conn : List Nat) (g : Geo K) : Prop where
  pos : RowPos nc pconn
  mx : ∀ c, c < nc → deg pconn c ≤ mx
  conn : ∀ i, i < pconn.getD nc 0 → ∃ f, conn[i]? = some f ∧ f < nf
  dim : d ≤ 3
  dimNe : (d : K) ≠ 0
  fneighbour : 2 * nf ≤ g.fneighbour.length
  fcentroid : nf * d ≤ g.fcentroid.length
  fnormal : nf * d ≤ g.fnormal.length
  farea : nf ≤ g.farea.length
  ccentroid : nc * d ≤ g.ccentroid.length
  cvol : nc ≤ g.cvol.length
  perm : nc * d * d ≤ g.perm.length
  vol : ∀ c, c < nc → g.cvol.getD c 0 ≠ 0

/-- `Q` has orthonormal columns and the columns of `C` are combinations of those of `Q`: what the LAPACK routines document for matrices of full rank. -/
structure Factor (n d : Nat) (C Q : List K) : Prop where
  len : Q.length = C.length
  ortho : ∀ k l, k < d → l < d → ∑ i ∈ Finset.range n, Q.getD (i + k * n) 0 * Q.getD (i + l * n) 0 = if k = l then 1 else 0
  span : ∃ R : Nat → Nat → K, ∀ i j, i < n → j < d → C.getD (i + j * n) 0 = ∑ k ∈ Finset.range d, Q.getD (i + k * n) 0 * R k j

/-- The orthonormalisation works for the weighted vectors of all the cells. -/
def Orthonormalises (qr : Nat → Nat → List K → List K) (nc d mx : Nat) (pconn conn : List Nat) (g : Geo K) : Prop :=
  ∀ c C, c < nc → C.length = mx * d → (∀ i j, i < deg pconn c → j < d → C.getD (i + j * deg pconn c) 0 = arm d pconn conn g c i j * area pconn conn g c i) →
    Factor (deg pconn c) d C (qr (deg pconn c) d C)

/-- The identity `Σ_faces normal ⊗ arm = volume · 1` of closed cells with plane faces (the divergence theorem). -/
def ClosedCells (nc d : Nat) (pconn conn : List Nat) (g : Geo K) : Prop :=
  ∀ c k l, c < nc → k < d → l < d → ∑ i ∈ Finset.range (deg pconn c), normal d pconn conn g c i k * arm d pconn conn g c i l = if k = l then g.cvol.getD c 0 else 0

/-- The permeability tensors are symmetric. -/
def PermSym (nc d : Nat) (g : Geo K) : Prop := ∀ c k l, c < nc → k < d → l < d → permOf d g c k l = permOf d g c l k

/-- The permeability tensors are positive definite. -/
def PermPos [LinearOrder K] (nc d : Nat) (g : Geo K) : Prop :=
  ∀ c, c < nc → ∀ y : Nat → K, (∃ k, k < d ∧ y k ≠ 0) → 0 < ∑ k ∈ Finset.range d, ∑ l ∈ Finset.range d, y k * permOf d g c k l * y l

end Opm.Mimetic
