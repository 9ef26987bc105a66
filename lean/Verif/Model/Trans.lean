import Verif.Core.RowLoop
import Verif.Model.Grid
/-!
# Two-point transmissibilities

Models `opm/core/pressure/tpfa/trans_tpfa.c`.  Numbers are exact rationals.
-/

namespace Opm.Trans
open Opm

/-- The fields of the grid used here beside the topology. -/
structure Geo where
  d : Nat
  cellCentroids : List Rat
  faceNormals : List Rat
  faceCentroids : List Rat

/-- `Kn = K * n` for a column-major `d × d` matrix starting at `base` (`dgemv_("No Transpose", …)` with `a1 = 1`, `a2 = 0`); entry `r`.
Models: `trans_tpfa.c:44-45`. -/
def gemvRow (d : Nat) (perm : List Rat) (base : Nat) (nrm : List Rat) (nbase : Nat) (r : Nat) : M Rat :=
  loop d (fun k acc => do
    let a ← rd perm (base + (r + k * d))
    let x ← rd nrm (nbase + k)
    .ok (acc + a * x)) 0

/-- `tpfa_htrans_compute(G, perm, htrans)`.  `Kn` has three entries, so `d ≤ 3`.  Models: `trans_tpfa.c:13-60`. -/
def htransCompute (g : GridTopo) (G : Geo) (perm htrans : List Rat) : M (List Rat) :=
  rowLoop g.nc g.cellFacepos (fun c i h => do
    let f ← rd g.cellFaces i
    let c1 ← rd g.faceCells (2 * f)
    let s : Rat := if c1 = (c : Int) then 1 else -1
    let r ← loop G.d (fun j (r : Rat × Rat) => do
      check (decide (j < 3))
      let kn ← gemvRow G.d perm (c * G.d * G.d) G.faceNormals (f * G.d) j
      let fc ← rd G.faceCentroids (f * G.d + j)
      let cc ← rd G.cellCentroids (c * G.d + j)
      .ok (r.1 + s * (fc - cc) * kn, r.2 + (fc - cc) * (fc - cc))) (0, 0)
    check (decide (0 < r.2))
    let q ← fdiv r.1 r.2
    wr h i (if q < 0 then -q else q)) htrans

/-- `trans[f] = 0` for all faces.  Models: `trans_tpfa.c:70-72`, `:98-100`. -/
def zeroFaces (nf : Nat) (trans : List Rat) : M (List Rat) := loop nf (fun f t => wr t f 0) trans

/-- `trans[f] = 1.0 / trans[f]` for all faces.  Models: `trans_tpfa.c:82-84`, `:110-112`. -/
def invertFaces (nf : Nat) (trans : List Rat) : M (List Rat) :=
  loop nf (fun f t => do
    let x ← rd t f
    let y ← fdiv 1 x
    wr t f y) trans

/-- `tpfa_trans_compute(G, htrans, trans)`.  Models: `trans_tpfa.c:64-85`. -/
def transCompute (g : GridTopo) (htrans trans : List Rat) : M (List Rat) := do
  let t ← zeroFaces g.nf trans
  let t ← rowLoop g.nc g.cellFacepos (fun _ i t => do
    let f ← rd g.cellFaces i
    let h ← rd htrans i
    let y ← fdiv 1 h
    addAt t f y) t
  invertFaces g.nf t

/-- `tpfa_eff_trans_compute(G, totmob, htrans, trans)`.  Models: `trans_tpfa.c:89-113`. -/
def effTransCompute (g : GridTopo) (totmob htrans trans : List Rat) : M (List Rat) := do
  let t ← zeroFaces g.nf trans
  let t ← rowLoop g.nc g.cellFacepos (fun c i t => do
    let f ← rd g.cellFaces i
    let m ← rd totmob c
    let h ← rd htrans i
    let y ← fdiv 1 (m * h)
    addAt t f y) t
  invertFaces g.nf t

end Opm.Trans
