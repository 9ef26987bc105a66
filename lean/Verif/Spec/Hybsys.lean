import Mathlib.Algebra.BigOperators.Group.Finset.Basic
import Mathlib.Algebra.Ring.Rat
import Verif.Spec.IfsTpfa
import Verif.Model.Hybsys
/-!
# Half faces and their inner products: specification

The half faces of cell `c` are those at the positions `pconn[c], …, pconn[c + 1] - 1`.  The inverse inner product of a cell with `n` half faces is a
block of `n * n` numbers, one column after the other; the blocks are stored one after the other.
-/

namespace Opm.Hybsys

/-- The number of half faces of cell `c`. -/
def deg (pconn : List Nat) (c : Nat) : Nat := pconn.getD (c + 1) 0 - pconn.getD c 0

/-- Where the block of cell `c` starts. -/
def off2 (pconn : List Nat) (c : Nat) : Nat := ∑ k ∈ Finset.range c, deg pconn k * deg pconn k

/-- Entry `(i, j)` of the inverse inner product of cell `c`. -/
def ip (pconn : List Nat) (Binv : List Rat) (c i j : Nat) : Rat := Binv.getD (off2 pconn c + (i + j * deg pconn c)) 0

/-- The value of half face `i` of cell `c`. -/
def hf (pconn : List Nat) (a : List Rat) (c i : Nat) : Rat := a.getD (pconn.getD c 0 + i) 0

/-- The face of half face `i` of cell `c`. -/
def face (pconn conn : List Nat) (c i : Nat) : Nat := conn.getD (pconn.getD c 0 + i) 0

/-- The pressure at half face `i` of cell `c`. -/
def hfPress (pconn conn : List Nat) (pi : List Rat) (c i : Nat) : Rat := pi.getD (face pconn conn c i) 0

/-- The inner products are symmetric. -/
def Symmetric (nc : Nat) (pconn : List Nat) (Binv : List Rat) : Prop :=
  ∀ c i j, c < nc → i < deg pconn c → j < deg pconn c → ip pconn Binv c i j = ip pconn Binv c j i

/-- The discrete law of Darcy in cell `c`: pressure `p` in the cell, `gpress` for gravity, pressures `pi` on the faces. -/
def Darcy (pconn conn : List Nat) (Binv gpress pi : List Rat) (c : Nat) (p : Rat) (v : Nat → Rat) : Prop :=
  ∀ i, i < deg pconn c → v i = ∑ j ∈ Finset.range (deg pconn c), ip pconn Binv c i j * (hf pconn gpress c j + p - hfPress pconn conn pi c j)

/-- The inner products are positive definite. -/
def PosDef (nc : Nat) (pconn : List Nat) (Binv : List Rat) : Prop :=
  ∀ c, c < nc → ∀ y : Nat → Rat, (∃ i, i < deg pconn c ∧ y i ≠ 0) →
    0 < ∑ i ∈ Finset.range (deg pconn c), ∑ j ∈ Finset.range (deg pconn c), y i * ip pconn Binv c i j * y j

/-- A pressure problem: a valid mesh whose faces have at least one cell and whose cells have at least two faces, admissible boundary conditions, and
arrays of the right sizes. -/
structure Problem (G : GridTopo) (bc : Option FlowBc.Bcs) (src Binv gpress : List Rat) : Prop where
  valid : G.Valid
  first : G.cellFacepos[0]? = some 0
  nonempty : 0 < G.nc
  sides : ∀ f, ¬G.Sides f (-1) (-1)
  two : ∀ c, c < G.nc → 2 ≤ deg G.cellFacepos c
  bc : ∀ b, bc = some b → IfsTpfa.BcOk G b
  src : G.nc ≤ src.length
  Binv : off2 G.cellFacepos G.nc ≤ Binv.length
  gpress : G.cellFacepos.getD G.nc 0 ≤ gpress.length

/-- Solver data for the mesh: the matrix structure is that of the constructor, the arrays have their sizes, the ones are ones.  The other numbers are
arbitrary: the data are new or have been used any number of times. -/
structure Fits (G : GridTopo) (h : Fsh) : Prop where
  A : ∃ junk, defineGlobconn junk G = .ok h.A
  sa : h.lin.sa.length = h.A.nnz
  b : h.lin.b.length = h.A.m
  L : h.sys.L.length = G.nc
  q : h.sys.q.length = G.nc
  F1 : h.sys.F1.length = G.cellFacepos.getD G.nc 0
  F2 : h.sys.F2.length = G.cellFacepos.getD G.nc 0
  cflux : h.cflux.length = G.cellFacepos.getD G.nc 0
  loc : ∃ mx, (∀ c, c < G.nc → deg G.cellFacepos c ≤ mx) ∧ mx ≤ h.sys.one.length ∧ (∀ i, i < mx → h.sys.one.getD i 0 = 1) ∧ mx * mx ≤ h.sys.S.length ∧
    mx ≤ h.sys.r.length ∧ mx ≤ h.work.length

/-- In the symmetric structure `F2` and `F1` are the same array. -/
def SameArray (h : Fsh) : Prop := h.sys.F2 = h.sys.F1

/-- The caller has set the matrix and the right hand side to zero. -/
def Zeroed (h : Fsh) : Prop := (∀ v ∈ h.lin.sa, v = 0) ∧ ∀ v ∈ h.lin.b, v = 0

/-- `x` solves the linear system. -/
def SolvesFsh (h : Fsh) (x : List Rat) : Prop := ∀ f, f < h.A.m → IfsTpfa.rowDot h.A h.lin.sa (fun k => x.getD k 0) f = h.lin.b.getD f 0

/-- A condition of the given type and value is set on face `f`. -/
def Cond (bc : Option FlowBc.Bcs) (ty : FlowBc.BcType) (v : Rat) (f : Nat) : Prop := ∃ b, bc = some b ∧ IfsTpfa.HasCond b ty v f

/-- `φ f` is the flux prescribed on face `f`, zero if there is none. -/
def Prescribed (bc : Option FlowBc.Bcs) (φ : Nat → Rat) : Prop :=
  ∀ f, (∀ v, Cond bc .fluxTotvol v f → φ f = v) ∧ ((∀ v, ¬Cond bc .fluxTotvol v f) → φ f = 0)

/-- The flux out of cell `c` through its half face `i`, given fluxes on the faces from their first to their second cell. -/
def outOf (G : GridTopo) (q : Nat → Rat) (c i : Nat) : Rat :=
  if G.faceCells[2 * face G.cellFacepos G.cellFaces c i]? = some (c : Int) then q (face G.cellFacepos G.cellFaces c i) else -q (face G.cellFacepos G.cellFaces c i)

end Opm.Hybsys
