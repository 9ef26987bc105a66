import Verif.Core.Buf
/-!
# Source-term and compressible boundary-condition containers

Models `opm/core/transport/implicit/transport_source.c`, `opm/core/pressure/tpfa/compr_source.c` and
`opm/core/pressure/tpfa/compr_bc.c`.  Allocation never fails; `int` is unbounded; capacities are natural numbers.
-/

namespace Opm.Sources
open Opm

/-- Contents of freshly allocated memory. -/
structure Junk where
  int : Nat → Int
  dbl : Nat → Rat
  bool : Nat → Bool

/-- The capacity after growth.  Models: `transport_source.c:150`, `compr_source.c:143`, `compr_bc.c:154`. -/
def grow (cpty : Nat) : Nat := if cpty > 0 then 2 * cpty else 1

/-! ### transport_source.c -/

/-- `struct TransportSource`.  Models: `transport_source.h:43-54`. -/
structure TSrc where
  nsrc : Nat
  cpty : Nat
  nphase : Nat
  cell : List Int
  pressure : List Rat
  flux : List Rat
  saturation : List Rat
  surfvolume : List Rat
  deriving DecidableEq, Repr

/-- `expand_source_tables(alloc, src)`.  Models: `transport_source.c:44-71`. -/
def TSrc.expand (J : Junk) (alloc : Nat) (s : TSrc) : TSrc :=
  { s with
    cell := realloc J.int s.cell (alloc * 1)
    pressure := realloc J.dbl s.pressure (alloc * 1)
    flux := realloc J.dbl s.flux (alloc * 1)
    saturation := realloc J.dbl s.saturation (alloc * s.nphase)
    surfvolume := realloc J.dbl s.surfvolume (alloc * s.nphase)
    cpty := alloc }

/-- `create_transport_source(nsrc, nphase)`; `none` models the null pointer returned for `nphase <= 0`.
Models: `transport_source.c:80-114`. -/
def TSrc.create (J : Junk) (nsrc nphase : Int) : Option TSrc :=
  if nphase ≤ 0 then none
  else
    let s : TSrc := { nsrc := 0, cpty := 0, nphase := nphase.toNat, cell := [], pressure := [], flux := [], saturation := [], surfvolume := [] }
    if nsrc > 0 then some (s.expand J nsrc.toNat) else some s

/-- `append_transport_source(c, nphase, p, v, sat, z, src)`; returns the status and the structure.
Models: `transport_source.c:133-171`. -/
def TSrc.append (J : Junk) (c nphase : Int) (p v : Rat) (sat z : List Rat) (s : TSrc) : M (Int × TSrc) :=
  if nphase ≠ s.nphase then .ok (-1, s)
  else do
    let s := if s.nsrc = s.cpty then s.expand J (grow s.cpty) else s
    let cell ← wr s.cell s.nsrc c
    let pressure ← wr s.pressure s.nsrc p
    let flux ← wr s.flux s.nsrc v
    let saturation ← memcpy s.saturation (s.nsrc * nphase.toNat) sat nphase.toNat
    let surfvolume ← memcpy s.surfvolume (s.nsrc * nphase.toNat) z nphase.toNat
    .ok (1, { s with cell := cell, pressure := pressure, flux := flux, saturation := saturation, surfvolume := surfvolume, nsrc := s.nsrc + 1 })

/-- `clear_transport_source(src)`.  Models: `transport_source.c:175-180`. -/
def TSrc.clear (s : TSrc) : TSrc := { s with nsrc := 0 }

/-! ### compr_source.c -/

/-- `struct compr_src`.  Models: `compr_source.h:52-91`. -/
structure CSrc where
  nsrc : Nat
  cpty : Nat
  nphases : Nat
  cell : List Int
  flux : List Rat
  saturation : List Rat
  deriving DecidableEq, Repr

/-- `expand_source_tables(alloc, src)`.  Models: `compr_source.c:43-65`. -/
def CSrc.expand (J : Junk) (alloc : Nat) (s : CSrc) : CSrc :=
  { s with
    cell := realloc J.int s.cell (alloc * 1)
    flux := realloc J.dbl s.flux (alloc * 1)
    saturation := realloc J.dbl s.saturation (alloc * s.nphases)
    cpty := alloc }

/-- `compr_src_allocate(np, nsrc)`.  Models: `compr_source.c:74-109`. -/
def CSrc.allocate (J : Junk) (np nsrc : Int) : Option CSrc :=
  if np ≤ 0 then none
  else
    let s : CSrc := { nsrc := 0, cpty := 0, nphases := np.toNat, cell := [], flux := [], saturation := [] }
    if nsrc > 0 then some (s.expand J nsrc.toNat) else some s

/-- Making room for one more term; the assertion of the other branch.  Models: `compr_source.c:142-148`. -/
def CSrc.reserve (J : Junk) (s : CSrc) : M CSrc :=
  if s.nsrc = s.cpty then .ok (s.expand J (grow s.cpty))
  else do
    check (decide (s.nsrc < s.cpty))
    .ok s

/-- `append_compr_source_term(c, np, v, sat, src)`.  Models: `compr_source.c:128-161`. -/
def CSrc.append (J : Junk) (c np : Int) (v : Rat) (sat : List Rat) (s : CSrc) : M (Int × CSrc) :=
  if np ≠ s.nphases then .ok (-1, s)
  else do
    let s ← s.reserve J
    let cell ← wr s.cell s.nsrc c
    let flux ← wr s.flux s.nsrc v
    let saturation ← memcpy s.saturation (s.nsrc * np.toNat) sat np.toNat
    .ok (1, { s with cell := cell, flux := flux, saturation := saturation, nsrc := s.nsrc + 1 })

/-- `clear_compr_source_term(src)`.  Models: `compr_source.c:165-170`. -/
def CSrc.clear (s : CSrc) : CSrc := { s with nsrc := 0 }

/-! ### compr_bc.c -/

/-- `struct compr_bc`; `type` is true for `BC_PRESSURE`, false for `BC_RESV`.  Models: `compr_bc.h:43-57`. -/
structure CBc where
  nbc : Nat
  cpty : Nat
  nphases : Nat
  type : List Bool
  face : List Int
  press : List Rat
  flux : List Rat
  saturation : List Rat
  deriving DecidableEq, Repr

/-- `expand_source_tables(alloc, bc)`.  The code does not assign `cpty` (`fix = false`); `fix = true` is the
repaired variant that does.  Models: `compr_bc.c:43-70`. -/
def CBc.expand (fix : Bool) (J : Junk) (alloc : Nat) (s : CBc) : CBc :=
  { s with
    type := realloc J.bool s.type (alloc * 1)
    face := realloc J.int s.face (alloc * 1)
    press := realloc J.dbl s.press (alloc * 1)
    flux := realloc J.dbl s.flux (alloc * 1)
    saturation := realloc J.dbl s.saturation (alloc * s.nphases)
    cpty := if fix then alloc else s.cpty }

/-- `compr_bc_allocate(np, nbc)`.  Models: `compr_bc.c:79-116`. -/
def CBc.allocate (fix : Bool) (J : Junk) (np nbc : Int) : Option CBc :=
  if np ≤ 0 then none
  else
    let s : CBc := { nbc := 0, cpty := 0, nphases := np.toNat, type := [], face := [], press := [], flux := [], saturation := [] }
    if nbc > 0 then some (s.expand fix J nbc.toNat) else some s

/-- Making room for one more condition; the assertion of the other branch is checked unless `ndebug`.
Models: `compr_bc.c:153-159`. -/
def CBc.reserve (fix ndebug : Bool) (J : Junk) (s : CBc) : M CBc :=
  if s.nbc = s.cpty then .ok (s.expand fix J (grow s.cpty))
  else do
    check (ndebug || decide (s.nbc < s.cpty))
    .ok s

/-- `compr_bc_append(t, f, np, p, v, sat, bc)`.  Models: `compr_bc.c:137-174`. -/
def CBc.append (fix ndebug : Bool) (J : Junk) (t : Bool) (f np : Int) (p v : Rat) (sat : List Rat) (s : CBc) : M (Int × CBc) :=
  if np ≠ s.nphases then .ok (-1, s)
  else do
    let s ← s.reserve fix ndebug J
    let type ← wr s.type s.nbc t
    let face ← wr s.face s.nbc f
    let press ← wr s.press s.nbc p
    let flux ← wr s.flux s.nbc v
    let saturation ← memcpy s.saturation (s.nbc * np.toNat) sat np.toNat
    .ok (1, { s with type := type, face := face, press := press, flux := flux, saturation := saturation, nbc := s.nbc + 1 })

/-- `compr_bc_clear(bc)`.  Models: `compr_bc.c:178-183`. -/
def CBc.clear (s : CBc) : CBc := { s with nbc := 0 }

end Opm.Sources
