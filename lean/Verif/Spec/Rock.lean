import Mathlib.Data.Rat.Defs
/-!
# Permeability as given by the keywords of a deck

Keywords are numbered: PERMX 0, PERMXY 1, PERMXZ 2, PERMYX 3, PERMY 4, PERMYZ 5, PERMZX 6, PERMZY 7, PERMZ 8; row `i` and column `j` of the tensor belong to keyword `3*i+j`.
-/

namespace Opm.RockData

/-- A component off the diagonal needs both components of its row and column on the diagonal. -/
def Complete (has : Nat → Bool) : Prop := ∀ i j, i < 3 → j < 3 → i ≠ j → has (3 * i + j) = true → has (3 * i + i) = true ∧ has (3 * j + j) = true

/-- The first keyword of a list which is given. -/
def firstGiven (has : Nat → Bool) : List Nat → Option Nat
  | [] => none
  | k :: ks => if has k then some k else firstGiven has ks

/-- The keyword which determines a component: on the diagonal, its own or else the first one of PERMX, PERMY, PERMZ; off the diagonal, the later one of the keywords of the component and of its mirror image. -/
def keywordOf (has : Nat → Bool) (i j : Nat) : Option Nat :=
  if i = j then firstGiven has [3 * i + i, 0, 4, 8] else firstGiven has [max (3 * i + j) (3 * j + i), min (3 * i + j) (3 * j + i)]

/-- The value of a component at a position of the deck; zero if it is not determined, and not negative on the diagonal. -/
def component (perm : Nat → Option (List Rat)) (i j pos : Nat) : Rat :=
  let v := match keywordOf (fun k => (perm k).isSome) i j with
    | none => 0
    | some k => ((perm k).getD []).getD pos 0
  if i = j then max v 0 else v

end Opm.RockData
