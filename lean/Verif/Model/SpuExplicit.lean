import Verif.Core.RowLoop
import Verif.Model.Grid
/-!
# Explicit upwind transport

Models `opm/core/transport/minimal/spu_explicit.c`.  Numbers are exact rationals; `s` and `s0` do not overlap.
-/

namespace Opm.Spu
open Opm

/-- Contribution from sources.  Models: `spu_explicit.c:28-43`. -/
def spuSources (nc : Nat) (s0 mob src : List Rat) (dt : Rat) (s : List Rat) : M (List Rat) :=
  loop nc (fun i s => do
    let x0 ← rd s0 i
    let s ← wr s i x0
    let q ← rd src i
    if 0 < q then addAt s i (dt * q)
    else do
      let m1 ← rd mob (2 * i)
      let m2 ← rd mob (2 * i + 1)
      let v ← fdiv (dt * q * m1) (m1 + m2)
      addAt s i v) s

/-- The mobilities `(m1, m2)` used on a face between `c1` and `c2` with fluxes `d`, `gf`.  Models: `spu_explicit.c:51-84`. -/
def faceMob (mob : List Rat) (c1 c2 : Int) (d gf : Rat) : M (Rat × Rat) :=
  if (0 < d ∧ 0 < gf) ∨ (d < 0 ∧ gf < 0) then do
    let m1 ← rdI mob (if 0 < d then 2 * c1 else 2 * c2)
    let m2 ← rdI mob (if 0 < d - m1 * gf then 2 * c1 + 1 else 2 * c2 + 1)
    .ok (m1, m2)
  else do
    let m2 ← rdI mob (if 0 < d then 2 * c1 + 1 else 2 * c2 + 1)
    let m1 ← rdI mob (if 0 < d + m2 * gf then 2 * c1 else 2 * c2)
    .ok (m1, m2)

/-- One face.  Models: `spu_explicit.c:47-91`. -/
def spuFace (g : GridTopo) (mob dflux gflux : List Rat) (dt : Rat) (f : Nat) (s : List Rat) : M (List Rat) := do
  let c1 ← rd g.faceCells (2 * f)
  let c2 ← rd g.faceCells (2 * f + 1)
  if c1 ≠ -1 ∧ c2 ≠ -1 then do
    let d ← rd dflux f
    let gf ← rd gflux f
    let m ← faceMob mob c1 c2 d gf
    check (decide (0 < m.1 + m.2))
    let r ← fdiv m.1 (m.1 + m.2)
    let x ← rdI s c1
    let s ← wrI s c1 (x - r * (d + m.2 * gf) * dt)
    let y ← rdI s c2
    wrI s c2 (y + r * (d + m.2 * gf) * dt)
  else .ok s

/-- `spu_explicit(g, s0, s, mob, dflux, gflux, src, dt)`.  Models: `spu_explicit.c:15-93`. -/
def spuExplicit (g : GridTopo) (s0 s mob dflux gflux src : List Rat) (dt : Rat) : M (List Rat) := do
  let s ← spuSources g.nc s0 mob src dt s
  loop g.nf (spuFace g mob dflux gflux dt) s

end Opm.Spu
