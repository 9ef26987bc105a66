import Verif.Model.Wells
import Verif.Spec.Slice
/-!
# Specification of the wells container: a plain list of wells

`Well` is a well as a user thinks of it; `specStep` is the effect of each call on the list of wells; `getWell`
is what a client reads from the structure of arrays.
-/

namespace Opm.Wells
open Opm

/-- A well.  `controls` are the operational constraints; `slots` are the phase distributions stored for the control
positions used so far: control `k` has distribution `slots[k]`.  Without `clear_well_controls` there are as many
slots as controls. -/
structure Well where
  type : WellType
  depth : Rat
  comp : List Rat
  cells : List Int
  wi : List Rat
  name : Option String
  controls : List (CtrlType × Rat)
  slots : List (List Rat)
  current : Int
  deriving DecidableEq, Repr

/-- A new constraint gets the given distribution; without one (`NULL`) it keeps what is stored at its
position, zeros if the position was never used. -/
def Well.addControl (np : Nat) (t : CtrlType) (g : Rat) (d : Option (List Rat)) (w : Well) : Well :=
  { w with
    controls := w.controls ++ [(t, g)]
    slots := if w.controls.length < w.slots.length then w.slots.set w.controls.length (d.getD (w.slots[w.controls.length]?.getD []))
             else w.slots ++ [d.getD (List.replicate np 0)] }

/-- The effect of a call on the list of wells. -/
def specStep (np : Nat) (ws : List Well) : Op → List Well
  | .addWell t d c cs wi n =>
    ws ++ [{ type := t, depth := d, comp := c.getD (List.replicate np 0), cells := cs, wi := wi.getD (List.replicate cs.length 0),
             name := n, controls := [], slots := [], current := -1 }]
  | .appendControls t g d w => ws.modify w.toNat (Well.addControl np t g d)
  | .setCurrent w cur => ws.modify w.toNat (fun x => { x with current := cur })
  | .clearControls w => ws.modify w.toNat (fun x => { x with controls := [] })

/-- The documented preconditions of a call: arrays of the right length, existing well, existing control. -/
def Pre (np : Nat) (ws : List Well) : Op → Prop
  | .addWell _ _ c cs wi _ => (∀ l, c = some l → l.length = np) ∧ (∀ l, wi = some l → l.length = cs.length)
  | .appendControls _ _ d w => 0 ≤ w ∧ w < ws.length ∧ ∀ l, d = some l → l.length = np
  | .setCurrent w cur => 0 ≤ w ∧ ∃ x, ws[w.toNat]? = some x ∧ cur < x.controls.length
  | .clearControls w => 0 ≤ w ∧ w < ws.length

/-- All calls of a history meet their preconditions. -/
def PreAll (np : Nat) : List Well → List Op → Prop
  | _, [] => True
  | ws, op :: ops => Pre np ws op ∧ PreAll np (specStep np ws op) ops

/-- What a client reads about control `k`. -/
def getControl (np : Nat) (c : Controls) (k : Nat) : M (CtrlType × Rat × List Rat) := do
  let t ← rd c.type k
  let g ← rd c.target k
  let d ← slice c.distr (k * np) ((k + 1) * np)
  .ok (t, g, d)

/-- The observable data of a well: everything but the history of unused control slots. -/
structure Obs where
  type : WellType
  depth : Rat
  comp : List Rat
  cells : List Int
  wi : List Rat
  name : Option String
  controls : List (CtrlType × Rat × List Rat)
  current : Int
  deriving DecidableEq, Repr

/-- The observable data a well should have. -/
def Well.obs (w : Well) : Obs :=
  { type := w.type, depth := w.depth, comp := w.comp, cells := w.cells, wi := w.wi, name := w.name,
    controls := (w.controls.zip w.slots).map (fun x => (x.1.1, x.1.2, x.2)), current := w.current }

/-- What a client reads about well `i`: the perforations are at `well_connpos[i], …, well_connpos[i+1]-1`. -/
def getWell (s : W) (i : Nat) : M Obs := do
  let t ← rd s.type i
  let d ← rd s.depthRef i
  let comp ← slice s.compFrac (i * s.np) ((i + 1) * s.np)
  let p ← rd s.connpos i
  let q ← rd s.connpos (i + 1)
  let cells ← slice s.cells p q
  let wi ← slice s.wi p q
  let n ← rd s.name i
  let c ← rd s.ctrls i
  let cs ← (List.range c.num).mapM (getControl s.np c)
  .ok { type := t, depth := d, comp := comp, cells := cells, wi := wi, name := n, controls := cs, current := c.current }

end Opm.Wells
