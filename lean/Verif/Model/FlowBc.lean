import Verif.Core.Buf
/-!
# Boundary conditions for incompressible flow

Models `opm/core/pressure/flow_bc.c`.  Allocation never fails.  `size_t` is unbounded.
-/

namespace Opm.FlowBc
open Opm

/-- `enum FlowBCType`.  Models: `flow_bc.h:29-31`. -/
inductive BcType where
  | noflow
  | pressure
  | fluxTotvol
  deriving DecidableEq, Repr

/-- `struct FlowBoundaryConditions`.  Models: `flow_bc.h:39-50`. -/
structure Bcs where
  nbc : Nat
  condCpty : Nat
  faceCpty : Nat
  condPos : List Nat
  type : List BcType
  value : List Rat
  face : List Int
  deriving DecidableEq, Repr

/-- Contents of freshly allocated memory. -/
structure Junk where
  pos : Nat → Nat
  type : Nat → BcType
  value : Nat → Rat
  face : Nat → Int

/-- `alloc_size(n, c)`.  Models: `flow_bc.c:32-45`. -/
def allocSize (n c : Nat) : Nat :=
  if c < n then if c * 2 < n then n else c * 2 else c

/-- The enlargement of the per-condition tables.  Models: `flow_bc.c:82-98`. -/
def expandCond (J : Junk) (nbc : Nat) (b : Bcs) : Bcs :=
  if nbc ≤ b.condCpty then b
  else
    let sz := allocSize nbc b.condCpty
    { b with type := realloc J.type b.type sz, value := realloc J.value b.value sz,
             condPos := realloc J.pos b.condPos (sz + 1), condCpty := sz }

/-- The enlargement of the face table.  Models: `flow_bc.c:100-110`. -/
def expandFace (J : Junk) (nf : Nat) (b : Bcs) : Bcs :=
  if nf ≤ b.faceCpty then b
  else
    let sz := allocSize nf b.faceCpty
    { b with face := realloc J.face b.face sz, faceCpty := sz }

/-- `expand_tables(nbc, nf, fbc)`.  Models: `flow_bc.c:69-114`. -/
def expandTables (J : Junk) (nbc nf : Nat) (b : Bcs) : Bcs := expandFace J nf (expandCond J nbc b)

/-- `flow_conditions_construct(nbc)`.  Models: `flow_bc.c:51-65` and `:126-150`. -/
def construct (J : Junk) (nbc : Nat) : M Bcs := do
  let b : Bcs := { nbc := 0, condCpty := 0, faceCpty := 0, condPos := [J.pos 0], type := [], value := [], face := [] }
  let b := expandTables J nbc nbc b
  let pos ← wr b.condPos 0 0
  .ok { b with condPos := pos }

/-- `flow_conditions_append_multi(type, nfaces, faces, value, fbc)`.  Models: `flow_bc.c:193-221`. -/
def appendMulti (J : Junk) (type : BcType) (faces : List Int) (value : Rat) (b : Bcs) : M Bcs := do
  let nbc := b.nbc
  let off ← rd b.condPos nbc
  let b := expandTables J (nbc + 1) (off + faces.length) b
  let off ← rd b.condPos nbc
  let face ← memcpy b.face off faces faces.length
  let ty ← wr b.type nbc type
  let va ← wr b.value nbc value
  let pos ← wr b.condPos (nbc + 1) (off + faces.length)
  .ok { b with face := face, type := ty, value := va, condPos := pos, nbc := nbc + 1 }

/-- `flow_conditions_append(type, face, value, fbc)`.  Models: `flow_bc.c:177-185`. -/
def append (J : Junk) (type : BcType) (face : Int) (value : Rat) (b : Bcs) : M Bcs := appendMulti J type [face] value b

/-- `flow_conditions_clear(fbc)`.  Models: `flow_bc.c:227-234`. -/
def clear (b : Bcs) : Bcs := { b with nbc := 0 }

/-- A mutating call. -/
inductive Op where
  | append (type : BcType) (face : Int) (value : Rat)
  | appendMulti (type : BcType) (faces : List Int) (value : Rat)
  | clear

def Op.exec (J : Junk) : Op → Bcs → M Bcs
  | .append t f v, b => FlowBc.append J t f v b
  | .appendMulti t fs v, b => FlowBc.appendMulti J t fs v b
  | .clear, b => .ok (FlowBc.clear b)

/-- A sequence of mutating calls. -/
def run (J : Junk) (ops : List Op) (b : Bcs) : M Bcs := ops.foldlM (fun b op => op.exec J b) b

end Opm.FlowBc
