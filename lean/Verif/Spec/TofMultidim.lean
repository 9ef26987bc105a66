import Verif.Model.TofMultidim
import Verif.Spec.Geometry
import Verif.Spec.Tof
/-!
# Multidimensional upwinding: specification
-/

namespace Opm.TofMultidim
open Opm
open _root_.Opm.Geometry (RowOf)

/-- What flows out of `cell` through its face `f`; negative for inflow. -/
def out (P : Problem) (cell f : Nat) : Rat := if P.g.faceCells.getD (2 * f) 0 = (cell : Int) then P.flux.getD f 0 else -P.flux.getD f 0

/-- The number of vertices in both of two faces. -/
def shared (ns ms : List Nat) : Nat := (ms.filter (fun n => n ∈ ns)).length

/-- The faces of a cell that meet face `f` in an edge (in a vertex, if there are two dimensions). -/
def beside (P : Problem) (fs : List Nat) (ns : Nat → List Nat) (f : Nat) : List Nat := fs.filter (fun j => j ≠ f ∧ shared (ns f) (ns j) + 1 = P.dim)

/-- The weight of the value at face `j` beside face `f`: what enters through `j` as part of that and the flux through `f`; zero if nothing enters through `j`. -/
def weight (P : Problem) (cell f j : Nat) : Rat := if out P cell j < 0 then -out P cell j / (-out P cell j + |P.flux.getD f 0|) else 0

/-- The value at face `f`: for every face beside it the mean, with that weight, of the value there and the value `t` of the cell; of these the mean. -/
def faceValue (P : Problem) (cell : Nat) (adj : List Nat) (F : Nat → Rat) (t : Rat) (f : Nat) : Rat :=
  (adj.map (fun j => weight P cell f j * F j + (1 - weight P cell f j) * t)).sum / adj.length

/-- The equations of a cell with time of flight `t`, and `F` at its faces: the value at a face with outflow is the mean above, and the time of flight that leaves the cell, through faces and sinks, is what enters
through faces, and the pore volume. -/
structure Solves (P : Problem) (cell : Nat) (fs : List Nat) (ns : Nat → List Nat) (t : Rat) (F : Nat → Rat) : Prop where
  faces : ∀ f ∈ fs, 0 < out P cell f → F f = faceValue P cell (beside P fs ns f) F t f
  balance : max (-P.src.getD cell 0) 0 * t + (fs.map (fun f => max (out P cell f) 0 * F f)).sum = P.pv.getD cell 0 + (fs.map (fun f => max (-out P cell f) 0 * F f)).sum

/-- The data of a cell with faces `fs`; `ns` are the vertices of faces. -/
structure CellData (P : Problem) (cell : Nat) (fs : List Nat) (ns : Nat → List Nat) : Prop where
  row : RowOf P.g.cellFacepos P.g.cellFaces cell fs
  nodes : ∀ f ∈ fs, RowOf P.nodepos P.facenodes f (ns f) ∧ (ns f).Nodup
  inside : ∀ f ∈ fs, f < P.g.nf ∧ f < P.flux.length ∧ 2 * f + 1 < P.g.faceCells.length
  pv : cell < P.pv.length
  src : cell < P.src.length
  planar : P.dim = 2 → ∀ f ∈ fs, (ns f).length = 2
  meet : ∀ f ∈ fs, ∀ j ∈ fs, j ≠ f → shared (ns f) (ns j) + 1 = P.dim ∨ shared (ns f) (ns j) = 0
  closed : ∀ f ∈ fs, (beside P fs ns f).length = (ns f).length ∧ 0 < (ns f).length

/-- No face without flux is beside a face with inflow. -/
def Quiet (P : Problem) (cell : Nat) (fs : List Nat) (ns : Nat → List Nat) : Prop := ∀ f ∈ fs, P.flux.getD f 0 = 0 → ∀ j ∈ beside P fs ns f, 0 ≤ out P cell j

/-- Something leaves the cell. -/
def Moving (P : Problem) (cell : Nat) (fs : List Nat) : Prop := P.src.getD cell 0 < 0 ∨ ∃ f ∈ fs, 0 < out P cell f

/-- What is required of the data. -/
structure Data (P : Problem) (fs : Nat → List Nat) (ns : Nat → List Nat) : Prop where
  valid : P.g.Valid
  cells : 0 < P.g.nc
  lenFlux : P.flux.length = P.g.nf
  lenSrc : P.g.nc ≤ P.src.length
  acyclic : NoCirculation P.g P.flux
  cell : ∀ c, c < P.g.nc → CellData P c (fs c) ns
  moving : ∀ c, c < P.g.nc → Moving P c (fs c)

end Opm.TofMultidim
