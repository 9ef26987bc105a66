import Verif.Core.Mem
import Verif.Model.Grid
/-!
# Model of `opm/core/grid/ColumnExtract.hpp`

Cells and Cartesian indices are natural numbers; the entries of `global_cell` are not negative.
-/

namespace Opm.ColumnExtract
open Opm

/-- The parts of `UnstructuredGrid` that are used.  `globalCell = none`: the pointer is `NULL`. -/
structure ColGrid where
  topo : GridTopo
  nx : Nat
  ny : Nat
  globalCell : Option (List Nat)

/-- Integer division; by zero it is undefined. -/
def ndiv (a b : Nat) : M Nat := if b = 0 then .error .ub else .ok (a / b)

/-- Remainder; modulo zero it is undefined. -/
def nmod (a b : Nat) : M Nat := if b = 0 then .error .ub else .ok (a % b)

/-- `grid.global_cell ? grid.global_cell[cell] : cell`.  Models: `ColumnExtract.hpp:24`, `:26`, `:66`. -/
def ColGrid.index (g : ColGrid) (cell : Nat) : M Nat :=
  match g.globalCell with
  | none => .ok cell
  | some l => rd l cell

/-- The k-index that `ExtractColumnCompare` compares.  The reads are those of the loop in `gather`; they have succeeded before any comparison, so they are not checked again.
Models: `ColumnExtract.hpp:21-30`. -/
def ColGrid.kIndex (g : ColGrid) (cell : Nat) : Nat :=
  (match g.globalCell with
  | none => cell
  | some l => l.getD cell 0) / g.nx / g.ny

/-- `neighbours(grid, c0, c1)`.  After `return true` nothing more is done.  Models: `ColumnExtract.hpp:38-47`. -/
def neighbours (g : ColGrid) (c0 c1 : Nat) : M Bool := do
  let b ← rd g.topo.cellFacepos c0
  let e ← rd g.topo.cellFacepos (c0 + 1)
  forRange b e (fun hf (r : Bool) =>
    if r then .ok true
    else do
      let f ← rd g.topo.cellFaces hf
      let x ← rd g.topo.faceCells (2 * f)
      if x = (c1 : Int) then .ok true
      else do
        let y ← rd g.topo.faceCells (2 * f + 1)
        .ok (decide (y = (c1 : Int)))) false

/-- Body of the loop over the cells; the state is `global_to_local`, as a list of pairs, and `columns`.  Models: `ColumnExtract.hpp:65-81`. -/
def gatherStep (g : ColGrid) (cell : Nat) (s : List (Nat × Nat) × List (List Nat)) : M (List (Nat × Nat) × List (List Nat)) := do
  let index ← g.index cell
  let i ← nmod index g.nx
  let a ← ndiv index g.nx
  let k ← ndiv a g.ny
  let j ← ndiv (index - k * g.nx * g.ny) g.nx
  match s.1.lookup (i + j * g.nx) with
  | some t => do
    let col ← rd s.2 t
    let cols ← wr s.2 t (col ++ [cell])
    .ok (s.1, cols)
  | none => do
    let cols := s.2 ++ [[]]
    let col ← rd cols s.2.length
    let cols ← wr cols s.2.length (col ++ [cell])
    .ok ((i + j * g.nx, s.2.length) :: s.1, cols)

/-- The loop over the cells.  Models: `ColumnExtract.hpp:63-81`. -/
def gather (g : ColGrid) (columns : List (List Nat)) : M (List (Nat × Nat) × List (List Nat)) := loop g.topo.nc (gatherStep g) ([], columns)

/-- One column is split; the parts that are moved to `new_columns`, and what remains.  Models: `ColumnExtract.hpp:91-111`. -/
def splitColumn (g : ColGrid) (col : List Nat) : M (List (List Nat) × List Nat) := do
  let r ← forRange 1 col.length (fun k (s : Nat × List (List Nat)) => do
    let c0 ← rd col (k - 1)
    let c1 ← rd col k
    let n ← neighbours g c0 c1
    if n then .ok s
    else .ok (k, s.2 ++ [(col.drop s.1).take (k - s.1)])) (0, [])
  .ok (r.2, col.drop r.1)

/-- The loop over the columns: the columns as they are then, and `new_columns`.  Models: `ColumnExtract.hpp:89-112`. -/
def splitAll (g : ColGrid) (columns : List (List Nat)) : M (List (List Nat) × List (List Nat)) :=
  columns.foldlM (fun (s : List (List Nat) × List (List Nat)) col => do
    let r ← splitColumn g col
    .ok (s.1 ++ [r.2], s.2 ++ r.1)) ([], [])

/-- `extractColumn(grid, columns)`.  `sort key l` stands for `std::sort` of `l` with the comparison of `key`.  Models: `ColumnExtract.hpp:58-121`. -/
def extractColumn (sort : (Nat → Nat) → List Nat → List Nat) (g : ColGrid) (columns : List (List Nat)) : M (List (List Nat)) := do
  let s ← gather g columns
  let r ← splitAll g (s.2.map (sort g.kIndex))
  .ok (r.1 ++ r.2)

end Opm.ColumnExtract
