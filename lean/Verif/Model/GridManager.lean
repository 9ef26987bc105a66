import Verif.Model.CartGrid
/-!
# Grids from decks

Models the constructor of `opm/core/grid/GridManager.cpp` that takes a deck.  Corner-point grids are modelled elsewhere (`Preprocess.lean`): here they are only told apart.
-/

namespace Opm.GridManager
open Opm Opm.Cart

/-- The keywords of the deck that are looked at.  Models: `GridManager.cpp:51-60`, `:150-199` (`hasField`, `getIntegerValue`, `getSPECGRID`, `getFloatingPointValue`). -/
structure Deck where
  zcorn : Bool := false
  coord : Bool := false
  actnum : Option (List Int) := none
  dimens : Option (List Int) := none
  specgrid : Option (List Int) := none
  dxv : Option (List Rat) := none
  dyv : Option (List Rat) := none
  dzv : Option (List Rat) := none
  depthz : Option (List Rat) := none
  tops : Option (List Rat) := none

/-- `std::partial_sum`, started with the sum so far. -/
def partialSum : Rat → List Rat → List Rat
  | _, [] => []
  | s, d :: ds => (s + d) :: partialSum (s + d) ds

/-- `coordsFromDeltas`.  Models: `GridManager.cpp:153-159`. -/
def coordsFromDeltas (deltas : List Rat) : List Rat := 0 :: partialSum 0 deltas

/-- `create_grid_tensor3d` with `depthz` given; the geometry computed from the nodes by `compute_geometry` (`Geometry.lean`) is left out.  Models: `cart_grid.c:139-165`, `:470-500`. -/
def createLayered3d (junk : Junk) (nx ny nz : Nat) (x y z depthz : List Rat) : M Grid := do
  let G ← fillTopology3d (allocateCartGrid3d junk nx ny nz)
  let n ← layeredNodes nx ny nz x y z depthz ⟨G.nodeCoord, 0⟩
  .ok { G with nodeCoord := n.buf }

/-- What has been made. -/
inductive Made where
  | cornerpoint
  | boxes (G : Grid)
  | layered (G : Grid)
  deriving DecidableEq

/-- The logical size.  Models: `GridManager.cpp:167-175`. -/
def dimsOf (d : Deck) : M (List Int) :=
  match d.dimens, d.specgrid with
  | some l, _ => .ok l
  | none, some l => .ok l
  | none, none => .error .thrown

/-- The comparison of a size of the deck with a number of cells.  Models: `GridManager.cpp:186-194`. -/
def checkSize (dims : List Int) (k : Nat) (v : List Rat) : M Unit := do
  let n ← rd dims k
  if n ≠ (v.length : Int) then .error .thrown else .ok ()

/-- `initFromDeckTensorgrid`.  Models: `GridManager.cpp:164-226`. -/
def initTensor (junk : Junk) (d : Deck) (dxv dyv dzv : List Rat) : M Made := do
  let dims ← dimsOf d
  let x := coordsFromDeltas dxv
  let y := coordsFromDeltas dyv
  let z := coordsFromDeltas dzv
  checkSize dims 0 dxv
  checkSize dims 1 dyv
  checkSize dims 2 dzv
  match d.depthz with
  | some depthz =>
    if depthz.length ≠ x.length * y.length then .error .thrown
    else do
      let G ← createLayered3d junk dxv.length dyv.length dzv.length x y z depthz
      .ok (.layered G)
  | none =>
    match d.tops with
    | some tops => do
      let t ← rd tops 0
      if tops.count t ≠ tops.length then .error .thrown
      else do
        let G ← createLayered3d junk dxv.length dyv.length dzv.length x y z (List.replicate (x.length * y.length) t)
        .ok (.layered G)
    | none => do
      let G ← createTensor3d junk dxv.length dyv.length dzv.length x y z
      .ok (.boxes G)

/-- The constructor.  Models: `GridManager.cpp:36-61`. -/
def construct (junk : Junk) (d : Deck) : M Made :=
  if d.zcorn ∧ d.coord then .ok .cornerpoint
  else
    match d.dxv, d.dyv, d.dzv with
    | some dxv, some dyv, some dzv => initTensor junk d dxv dyv dzv
    | _, _, _ => .error .thrown

end Opm.GridManager
