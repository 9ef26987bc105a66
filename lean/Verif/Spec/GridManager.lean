import Verif.Model.GridManager
import Verif.Spec.CartGrid
/-!
# Grids from decks: specification
-/

namespace Opm.GridManager
open Opm Opm.Cart

/-- Grid line `i`, given the widths of the cells: the sum of the widths before it. -/
def line (widths : List Rat) (i : Nat) : Rat := (widths.take i).sum

/-- The logical size in the deck: `DIMENS`, or `SPECGRID` if there is no `DIMENS`. -/
def Deck.size (d : Deck) : Option (List Int) := d.dimens <|> d.specgrid

/-- A deck in tensor format with widths `dxv`, `dyv`, `dzv`, at least one in each direction, as many as the logical size says. -/
structure Tensor (d : Deck) (dxv dyv dzv : List Rat) : Prop where
  format : ¬(d.zcorn = true ∧ d.coord = true)
  x : d.dxv = some dxv
  y : d.dyv = some dyv
  z : d.dzv = some dzv
  size : ∃ rest, d.size = some ((dxv.length : Int) :: (dyv.length : Int) :: (dzv.length : Int) :: rest)
  px : 0 < dxv.length
  py : 0 < dyv.length
  pz : 0 < dzv.length

/-- The nodes of a grid lie on grid lines in the horizontal directions, and below depth `D` of the column of nodes by the distance of the grid line in the vertical direction. -/
def NodesBelow (dxv dyv dzv : List Rat) (D : Nat → Nat → Rat) (G : Grid) : Prop :=
  ∀ i j k, i ≤ dxv.length → j ≤ dyv.length → k ≤ dzv.length →
    slice G.nodeCoord (3 * node3 dxv.length dyv.length i j k) (3 * node3 dxv.length dyv.length i j k + 3) = .ok [line dxv i, line dyv j, D i j + line dzv k]

end Opm.GridManager
