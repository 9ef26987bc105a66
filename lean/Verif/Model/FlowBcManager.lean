import Verif.Model.FlowBc
/-!
# Boundary conditions on the sides of a grid

Models `opm/core/pressure/FlowBCManager.cpp`.  Areas are rational numbers.  Allocation never fails, so that the `THROW`s after failed
appends are not reached.  Not modelled: the texts of messages.
-/

namespace Opm.FlowBcManager
open Opm FlowBc

/-- The parts of `struct UnstructuredGrid` that are used; null pointers are `none`. -/
structure SideGrid where
  ndims : Nat
  cartdims : List Nat
  nc : Nat
  globalCell : Option (List Nat)
  facepos : List Nat
  cellFaces : List Nat
  facetag : Option (List Nat)
  faceCells : List Int
  faceAreas : List Rat

/-- `cartCoord`, with the dimensions still to be treated.  Models: `FlowBCManager.cpp:166-181`. -/
def cartCoord : List Nat → Nat → M (List Nat)
  | [], ix => if ix = 0 then .ok [] else .error .assertFail
  | d :: ds, ix => if d = 0 then .error .ub else do
    let r ← cartCoord ds (ix / d)
    .ok (ix % d :: r)

/-- `gc`.  Models: `FlowBCManager.cpp:213`. -/
def SideGrid.global (g : SideGrid) (c : Nat) : M Nat := match g.globalCell with
  | some l => rd l c
  | none => .ok c

/-- One half-face.  Models: `FlowBCManager.cpp:219-228`. -/
def halfFace (g : SideGrid) (tag : List Nat) (side hf : Nat) (faces : List Nat) : M (List Nat) := do
  let t ← rd tag hf
  if t = side then do
    let f ← rd g.cellFaces hf
    let a ← rd g.faceCells (2 * f)
    if a = -1 then .ok (faces ++ [f]) else do
      let b ← rd g.faceCells (2 * f + 1)
      if b = -1 then .ok (faces ++ [f]) else .error .thrown
  else .ok faces

/-- `correct_ijk`.  Models: `FlowBCManager.cpp:209`. -/
def correct (side d : Nat) : Nat := if side % 2 = 1 then d - 1 else 0

/-- One cell.  Models: `FlowBCManager.cpp:211-230`. -/
def sideCell (g : SideGrid) (tag : List Nat) (side d c : Nat) (faces : List Nat) : M (List Nat) := do
  let gc ← g.global c
  let ijk ← cartCoord (g.cartdims.take g.ndims) gc
  let x ← rd ijk (side / 2)
  if x = correct side d then do
    let a ← rd g.facepos c
    let b ← rd g.facepos (c + 1)
    forRange a b (halfFace g tag side) faces
  else .ok faces

/-- `findSideFaces`.  Models: `FlowBCManager.cpp:190-232`. -/
def findSideFaces (g : SideGrid) (side : Nat) : M (List Nat) := match g.facetag with
  | none => .error .thrown
  | some tag => do
    check (g.ndims ≤ 3)
    check (side < 2 * g.ndims)
    let d ← rd g.cartdims (side / 2)
    loop g.nc (sideCell g tag side d) []

/-- `pressureSide`; the address of the first face of an empty vector is undefined.  Models: `FlowBCManager.cpp:91-101`. -/
def pressureSide (J : Junk) (g : SideGrid) (side : Nat) (p : Rat) (b : Bcs) : M Bcs := do
  let faces ← findSideFaces g side
  let _ ← rd faces 0
  appendMulti J .pressure (faces.map (fun f : Nat => (f : Int))) p b

/-- `tot_area`.  Models: `FlowBCManager.cpp:121-125`. -/
def totalArea (g : SideGrid) (faces : List Nat) : M Rat := faces.foldlM (fun s f => do
  let a ← rd g.faceAreas f
  .ok (s + a)) 0

/-- `fluxSide`.  Models: `FlowBCManager.cpp:113-135`. -/
def fluxSide (J : Junk) (g : SideGrid) (side : Nat) (q : Rat) (b : Bcs) : M Bcs := do
  let faces ← findSideFaces g side
  let tot ← totalArea g faces
  faces.foldlM (fun b f => do
    let a ← rd g.faceAreas f
    let v ← fdiv (q * a) tot
    append J .fluxTotvol f v b) b

/-- A call of the manager.  Models: `FlowBCManager.cpp:56-135`. -/
inductive Call where
  | clear
  | append (type : BcType) (face : Int) (value : Rat)
  | pressureSide (g : SideGrid) (side : Nat) (p : Rat)
  | fluxSide (g : SideGrid) (side : Nat) (q : Rat)

def Call.exec (J : Junk) : Call → Bcs → M Bcs
  | .clear, b => .ok (FlowBc.clear b)
  | .append t f v, b => FlowBc.append J t f v b
  | .pressureSide g s p, b => FlowBcManager.pressureSide J g s p b
  | .fluxSide g s q, b => FlowBcManager.fluxSide J g s q b

/-- A manager is constructed (`FlowBCManager.cpp:40-47`), then called. -/
def manage (J : Junk) (calls : List Call) : M Bcs := do
  let b ← construct J 0
  calls.foldlM (fun b c => c.exec J b) b

end Opm.FlowBcManager
