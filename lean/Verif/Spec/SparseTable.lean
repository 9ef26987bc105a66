import Verif.Model.SparseTable
/-!
# Specification of a table with rows of varying size: a list of rows
-/

namespace Opm.SparseTableSpec

variable {α : Type _}

/-- Cut a flat list into consecutive pieces of the given lengths. -/
def cut : List Nat → List α → List (List α)
  | [], _ => []
  | n :: ns, l => l.take n :: cut ns (l.drop n)

/-- `std::vector::resize` seen abstractly: first `n` elements, filled up with `dflt`. -/
def padTo (dflt : α) (n : Nat) (l : List α) : List α :=
  (l ++ List.replicate n dflt).take n

/-- Replace element `j` of row `i`. -/
def setAt (rows : List (List α)) (i j : Nat) (x : α) : List (List α) :=
  rows.modify i (fun r => r.set j x)

open Opm.SparseTable

/-- Specification of one call on the list of rows: `none` = the call must be refused. -/
def specStep (dflt : α) (rows : List (List α)) : Op α → Option (List (List α))
  | .assign d s =>
    if s ≠ [] ∧ (∀ n ∈ s, 0 ≤ n) ∧ s.sum = d.length then some (cut (s.map Int.toNat) d) else none
  | .allocate s =>
    if s ≠ [] then some (cut s (padTo dflt s.sum rows.flatten)) else none
  | .appendRow r => some (rows ++ [r])
  | .clear => some []
  | .setElem i j x =>
    if h : 0 ≤ i ∧ i.toNat < rows.length then
      if j < (rows[i.toNat]'h.2).length then some (setAt rows i.toNat j x) else none
    else none

/-- Specification of a history. -/
def specRun (dflt : α) : List (List α) → List (Op α) → Option (List (List α))
  | rows, [] => some rows
  | rows, o :: os => (specStep dflt rows o).bind fun r => specRun dflt r os

end Opm.SparseTableSpec
