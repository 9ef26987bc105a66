import Verif.Model.ColumnExtract
import Verif.Spec.Grid
/-!
# Columns of a grid: specification
-/

namespace Opm.ColumnExtract
open Opm

/-- Cartesian index of a cell. -/
def ColGrid.cart (g : ColGrid) (c : Nat) : Nat :=
  match g.globalCell with
  | none => c
  | some l => l.getD c 0

/-- Cartesian coordinates of a cell. -/
def ColGrid.i (g : ColGrid) (c : Nat) : Nat := g.cart c % g.nx
def ColGrid.j (g : ColGrid) (c : Nat) : Nat := g.cart c / g.nx % g.ny
def ColGrid.k (g : ColGrid) (c : Nat) : Nat := g.cart c / g.nx / g.ny

/-- A valid grid, with different Cartesian indices for different cells. -/
structure ColGrid.Ok (g : ColGrid) : Prop where
  valid : g.topo.Valid
  nx : 0 < g.nx
  ny : 0 < g.ny
  global : ∀ l, g.globalCell = some l → l.length = g.topo.nc
  inj : ∀ c c', c < g.topo.nc → c' < g.topo.nc → g.cart c = g.cart c' → c = c'

/-- Two cells are the two sides of some face. -/
def ColGrid.Adjacent (g : ColGrid) (c c' : Nat) : Prop := ∃ f, g.topo.Sides f (c : Int) (c' : Int) ∨ g.topo.Sides f (c' : Int) (c : Int)

/-- Two cells have the same horizontal position. -/
def ColGrid.SameColumn (g : ColGrid) (c c' : Nat) : Prop := g.i c = g.i c' ∧ g.j c = g.j c'

/-- `cols` are the maximal connected vertical stacks of cells. -/
structure Stacks (g : ColGrid) (cols : List (List Nat)) : Prop where
  /-- Each cell is in exactly one stack, once. -/
  once : cols.flatten.Perm (List.range g.topo.nc)
  nonempty : [] ∉ cols
  /-- The cells of a stack have the same horizontal position and are sorted downwards. -/
  order : ∀ col ∈ cols, col.Pairwise (fun a b => g.SameColumn a b ∧ g.k a < g.k b)
  /-- Two cells follow each other in a stack if and only if they follow each other among the cells of this horizontal position and have a face in common. -/
  joined : ∀ c c', c < g.topo.nc → c' < g.topo.nc →
    ((∃ col ∈ cols, [c, c'] <:+: col) ↔
      g.SameColumn c c' ∧ g.k c < g.k c' ∧ (∀ x, x < g.topo.nc → g.SameColumn c x → ¬ (g.k c < g.k x ∧ g.k x < g.k c')) ∧ g.Adjacent c c')

/-- What `std::sort` guarantees: a permutation, sorted. -/
def Sorts (sort : (Nat → Nat) → List Nat → List Nat) : Prop := ∀ key l, (sort key l).Perm l ∧ (sort key l).Pairwise (fun a b => key a ≤ key b)

end Opm.ColumnExtract
