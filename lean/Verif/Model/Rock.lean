import Verif.Model.SatProps
/-!
# Rock: porosity and permeability

Models `opm/core/props/rock/RockFromDeck.cpp`, `RockBasic.cpp`, and the properties put together in `IncompPropertiesFromDeck.cpp` and `IncompPropertiesBasic.cpp`.
-/

namespace Opm.RockData
open Opm Opm.Blackoil Opm.SatFunc

/-- The keywords of a deck which are looked at.  Components of permeability are numbered as in the code: PERMX, PERMXY, PERMXZ, PERMYX, PERMY, PERMYZ, PERMZX, PERMZY, PERMZ. -/
structure RockDeck where
  poro : Option (List Rat) := none
  perm : Nat → Option (List Rat) := fun _ => none

/-- `PermeabilityKind`. -/
inductive Kind where
  | scalar | diagonal | tensor | none | invalid
  deriving DecidableEq, Repr

/-- `classifyPermeability`, for which components are given.  Models: `RockFromDeck.cpp:160-205`. -/
def classify (has : Nat → Bool) : Kind :=
  let xx := has 0
  let xy := has 1
  let xz := has 2
  let yx := has 3
  let yy := has 4
  let yz := has 5
  let zx := has 6
  let zy := has 7
  let zz := has 8
  let cross := xy.toNat + xz.toNat + yx.toNat + yz.toNat + zx.toNat + zy.toNat
  let num := xx.toNat + yy.toNat + zz.toNat + cross
  let kind := if 0 < cross then Kind.tensor else if num = 1 then .scalar else if 2 ≤ num then .diagonal else .none
  let ok := if 0 < num then (xx || !(xy || xz || yx || zx)) && (yy || !(yx || yz || xy || zy)) && (zz || !(zx || zy || xz || yz)) else true
  if !ok then .invalid else kind

/-- `setScalarPermIfNeeded`.  Models: `RockFromDeck.cpp:228-233`. -/
def setScalar (kmap : List Nat) (i j k : Nat) : List Nat :=
  let a := if kmap.getD j 0 = 0 then kmap.set j (kmap.getD i 0) else kmap
  if a.getD k 0 = 0 then a.set k (a.getD i 0) else a

/-- A component on the diagonal.  Models: `RockFromDeck.cpp:285-290`, `:306-311`, `:327-332`. -/
def diag {α : Type} (v : Option α) (i j k : Nat) (s : List α × List Nat) : List α × List Nat :=
  match v with
  | none => s
  | some a => (s.1 ++ [a], setScalar (s.2.set i s.1.length) i j k)

/-- A component off the diagonal, and its mirror image.  Models: `RockFromDeck.cpp:291-294`, `:295-298`, `:302-305`, `:312-315`, `:319-322`, `:323-326`. -/
def cross {α : Type} (v : Option α) (i j : Nat) (s : List α × List Nat) : List α × List Nat :=
  match v with
  | none => s
  | some a => (s.1 ++ [a], (s.2.set j s.1.length).set i s.1.length)

/-- The list of fields, of which `zero` is the first, and for each component the number of its field: `fillTensor` after the check.  Generic in what stands for a field.  Models: `RockFromDeck.cpp:268-334`. -/
def fill {α : Type} (zero : α) (v : Nat → Option α) : List α × List Nat :=
  let s := ([zero], List.replicate 9 0)
  let s := diag (v 0) 0 4 8 s
  let s := cross (v 1) 1 3 s
  let s := cross (v 2) 2 6 s
  let s := cross (v 3) 3 1 s
  let s := diag (v 4) 4 8 0 s
  let s := cross (v 5) 5 7 s
  let s := cross (v 6) 6 2 s
  let s := cross (v 7) 7 5 s
  diag (v 8) 8 0 4 s

/-- The parts of a grid which are looked at. -/
structure RockGrid where
  cells : Nat
  globalCell : Option (List Nat) := none
  /-- `cartdims[0]*cartdims[1]*cartdims[2]` -/
  cart : Nat

/-- Position of a cell in the deck. -/
def RockGrid.deckPos (g : RockGrid) (cell : Nat) : M Nat := match g.globalCell with | none => .ok cell | some gc => rd gc cell

/-- `assignPorosity`.  Models: `RockFromDeck.cpp:68-80`. -/
def porosity (d : RockDeck) (g : RockGrid) : M (List Rat) :=
  match d.poro with
  | none => .ok (List.replicate g.cells 1)
  | some poro =>
    loop g.cells (fun c l => do
      let pos ← g.deckPos c
      let v ← rd poro pos
      wr l c v) (List.replicate g.cells 1)

/-- One row of the tensor of a cell.  Models: `RockFromDeck.cpp:124-131`. -/
def row (tensor : List (List Rat)) (kmap : List Nat) (glob off i : Nat) (k : List Rat) : M (List Rat) := do
  let k ← loop 3 (fun j k => do
    let m ← rd kmap (3 * i + j)
    let t ← rd tensor m
    let v ← rd t glob
    wr k (off + (3 * i + j)) v) k
  let x ← rd k (off + 3 * i + i)
  wr k (off + 3 * i + i) (if x < 0 then 0 else x)

/-- `assignPermeability`, with threshold zero: permeabilities, and which cells have one.  Models: `RockFromDeck.cpp:84-136`. -/
def permeability (d : RockDeck) (g : RockGrid) : M (List Rat × List Bool) := do
  check (decide (0 < g.cart))
  if classify (fun i => (d.perm i).isSome) = .invalid then .error .thrown
  else
    let (tensor, kmap) := fill (List.replicate g.cart 0) d.perm
    if 1 < tensor.length then
      loop g.cells (fun c r => do
        let glob ← g.deckPos c
        let k ← loop 3 (fun i k => row tensor kmap glob (9 * c) i k) r.1
        .ok (k, r.2.set c true)) (List.replicate (9 * g.cells) 0, List.replicate g.cells false)
    else .ok (List.replicate (9 * g.cells) 0, List.replicate g.cells false)

/-- Data members. -/
structure Rock where
  poro : List Rat
  perm : List Rat
  valid : List Bool
  deriving DecidableEq, Repr

/-- `init`.  Models: `RockFromDeck.cpp:58-65`. -/
def Rock.init (d : RockDeck) (g : RockGrid) : M Rock := do
  let poro ← porosity d g
  let (perm, valid) ← permeability d g
  .ok ⟨poro, perm, valid⟩

/-! ### `RockBasic` -/

/-- Data members. -/
structure BasicRock where
  dim : Nat
  poro : List Rat
  perm : List Rat
  deriving DecidableEq, Repr

/-- `init`.  Models: `RockBasic.cpp:34-52`. -/
def BasicRock.init (dim cells : Nat) (poro perm : Rat) : M BasicRock := do
  let k ← loop cells (fun i k => loop dim (fun e k => wr k (dim * dim * i + dim * e + e) perm) k) (List.replicate (cells * (dim * dim)) 0)
  .ok ⟨dim, List.replicate cells poro, k⟩

/-! ### Incompressible fluids and rock -/

/-- `IncompPropertiesFromDeck`. -/
structure IncompDeck where
  rock : Rock
  pvt : Incomp
  sat : SatProps

/-- The constructor; 2 is what `PvtPropertiesIncompFromDeck::numPhases` returns.  Models: `IncompPropertiesFromDeck.cpp:29-39`. -/
def IncompDeck.init (u : Sampling) (rd_ : RockDeck) (d : SatDeck) (rg : RockGrid) (g : SatGrid) : M IncompDeck := do
  let rock ← Rock.init rd_ rg
  let pvt ← Incomp.init d.phases
  let sat ← SatProps.init .simple (some (u, 200)) d g
  if 2 ≠ sat.usage.num then .error .thrown else .ok ⟨rock, pvt, sat⟩

/-- `IncompPropertiesBasic`. -/
structure IncompBasic where
  rock : BasicRock
  pvt : Basic
  sat : BasicSat
  viscosity : List Rat
  deriving DecidableEq, Repr

/-- What both constructors do at the end.  Models: `IncompPropertiesBasic.cpp:41-46`, `:61-66`. -/
def IncompBasic.finish (rock : BasicRock) (pvt : Basic) (sat : BasicSat) : M IncompBasic :=
  if pvt.density.length ≠ sat.num then .error .thrown
  else do
    let v ← pvt.mu 1 (List.replicate pvt.density.length 0)
    .ok ⟨rock, pvt, sat, v⟩

/-- The constructor with given data.  Models: `IncompPropertiesBasic.cpp:49-67`. -/
def IncompBasic.init (num : Int) (f : KrFun) (rho mu : List Rat) (poro perm : Rat) (dim cells : Nat) : M IncompBasic := do
  let rock ← BasicRock.init dim cells poro perm
  let pvt ← Basic.init num rho mu
  IncompBasic.finish rock pvt ⟨num.toNat, f⟩

/-- `milli*darcy` in square metres.  Models: `Units.hpp:147-155`. -/
def milliDarcy : Rat := 1 / 1000 * ((1 / 100 * (1 / 1000)) / (101325 / (1 / 100)))

/-- The constructor with parameters (default values: porosity 1, permeability 100).  Models: `IncompPropertiesBasic.cpp:29-47`. -/
def IncompBasic.initParam (num : Int) (name : String) (rho mu : Nat → Rat) (poro perm : Rat) (dim cells : Nat) : M IncompBasic := do
  let rock ← BasicRock.init dim cells poro (perm * milliDarcy)
  let pvt ← Basic.initParam num rho mu
  let sat ← BasicSat.init num name
  IncompBasic.finish rock pvt sat

end Opm.RockData
