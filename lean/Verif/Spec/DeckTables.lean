import Verif.Spec.DeckText
/-!
# Tables in decks
-/

namespace Opm.Deck
open Opm Istream

/-- Column `k` of a table with `ncol` columns whose values are listed row by row; only whole rows count. -/
def column (ncol : Nat) (record : List Rat) (k : Nat) : List Rat := (List.range (record.length / ncol)).map (fun i => record.getD (i * ncol + k) 0)

def columns (ncol : Nat) (record : List Rat) : List (List Rat) := (List.range ncol).map (column ncol record)

/-- The values of a record without defaults. -/
def Record.values (r : Record Rat) : List Rat := r.vals.filterMap id

/-- Records, each with what stands before it. -/
abbrev Records := List (List Gap × Record Rat)

def recordsText (rs : Records) : List Char := rs.flatMap (fun x => gaps x.1 ++ x.2.text)

/-- The record begins, without blanks, with a digit or a point. -/
def Record.Leads (r : Record Rat) : Prop := ∃ c t, r.text = c :: t ∧ (isDig c = true ∨ c = '.')

/-- Records without defaults, all but the first of which begin with a digit or a point. -/
structure RecordsOk (rs : Records) : Prop where
  some : rs ≠ []
  ok : ∀ x ∈ rs, x.2.Ok IsReal (fun n => (n : Rat)) ∧ (∀ g ∈ x.1, g.Ok) ∧ ∀ y ∈ x.2.items, ∀ n c, y.2 ≠ .dflt n c
  leads : ∀ x ∈ rs.tail, x.2.Leads

/-- The next keyword. -/
def Keyword (tail : List Char) : Prop := ∃ c t, tail = c :: t ∧ isAlph c = true

/-- What follows the tables: the next keyword, which is left for the next reader, or the end of the file. -/
def EndsAt (tail : List Char) (end_ : S) : Prop := (Keyword tail ∧ end_ = ⟨tail, false, false⟩) ∨ (tail = [] ∧ end_ = ⟨[], true, true⟩)

/-- A table of records, ended by a slash on a line of its own. -/
structure LiveTable where
  records : Records
  gap : List Gap
  remark : List Char

def LiveTable.text (t : LiveTable) : List Char := recordsText t.records ++ gaps t.gap ++ '/' :: t.remark ++ ['\n']

/-- All records begin with a digit or a point, except perhaps the first one of the first table. -/
structure LiveTable.Ok (t : LiveTable) : Prop where
  records : RecordsOk t.records
  gap : ∀ g ∈ t.gap, g.Ok
  remark : '\n' ∉ t.remark

def LiveTable.Leads (t : LiveTable) : Prop := ∀ x ∈ t.records.head?, x.2.Leads

def liveText (ts : List LiveTable) : List Char := ts.flatMap LiveTable.text

def LiveTable.values (t : LiveTable) : List (List Rat) := t.records.map (fun x => x.2.values)

/-! ### Relative permeabilities -/

/-- Values, or `1*` for a value to be interpolated. -/
def RelPermItem (it : Item Rat) : Prop :=
  (∃ v, it = .one v ∧ IsReal v) ∨ ∃ c, it = .dflt 1 c ∧ IsReal c ∧ c.val = 1

/-- The values of a record, with `-1` for defaults. -/
def Record.flagged (r : Record Rat) : List Rat := r.vals.map (fun v => v.getD (-1))

/-- A record of values and defaults; the slash is followed by a blank or nothing. -/
structure Record.RelPermOk (r : Record Rat) : Prop where
  items : ∀ x ∈ r.items, RelPermItem x.2 ∧ ∀ g ∈ x.1, g.Ok
  apart : ∀ x ∈ r.items.tail, x.1 ≠ []
  gap : ∀ g ∈ r.gap, g.Ok
  remark : '\n' ∉ r.remark
  slash : ∀ c, r.remark.head? = some c → isSpace c = true

structure RelPermRecordsOk (rs : Records) : Prop where
  some : rs ≠ []
  ok : ∀ x ∈ rs, x.2.RelPermOk ∧ ∀ g ∈ x.1, g.Ok
  leads : ∀ x ∈ rs.tail, x.2.Leads

/-- The line through two points. -/
def chord (x1 y1 x2 y2 x : Rat) : Rat := y1 + (y2 - y1) / (x2 - x1) * (x - x1)

/-- Row `i` has the value `y` in the column. -/
def HasValue (col : List Rat) (i : Nat) (y : Rat) : Prop := col[i]? = some y ∧ y ≠ -1

/-- There is no value in row `i`. -/
def NoValue (col : List Rat) (i : Nat) : Prop := col[i]? = some (-1)

/-- Column `col'` is `col` with missing values filled in: values are kept; a column without values gets zeros; a missing value lies on the line through the
values next to it (through the first two or the last two values if it is before or after all of them). -/
structure Filled (xs col col' : List Rat) : Prop where
  length : col'.length = col.length
  kept : ∀ i y, HasValue col i y → col'[i]? = some y
  zero : (∀ i y, ¬HasValue col i y) → ∀ y ∈ col', y = 0
  lines : ∀ i j yi yj xi xj, i < j → HasValue col i yi → HasValue col j yj → (∀ k, i < k → k < j → NoValue col k) → xs[i]? = some xi → xs[j]? = some xj →
    ∀ k xk, NoValue col k → xs[k]? = some xk → (i < k ∧ k < j) ∨ (k < i ∧ ∀ l y, l < i → ¬HasValue col l y) ∨ (j < k ∧ ∀ l y, j < l → ¬HasValue col l y) →
      col'[k]? = some (chord xi yi xj yj xk)

/-- The values missing in a column are determined by those present. -/
def Fillable (col : List Rat) : Prop := (col.filter (fun y => y ≠ -1)).length ≠ 1

/-- The columns of a record of relative permeabilities, with missing values filled in in all but the first. -/
structure FilledTable (ncol : Nat) (record : List Rat) (t : List (List Rat)) : Prop where
  size : t.length = ncol
  first : t[0]? = some (column ncol record 0)
  rest : ∀ k, 0 < k → k < ncol → ∃ col, t[k]? = some col ∧ Filled (column ncol record 0) (column ncol record k) col

/-- Increasing arguments, and no column with exactly one value. -/
structure FillableTable (ncol : Nat) (record : List Rat) : Prop where
  mono : (column ncol record 0).Pairwise (· < ·)
  cols : ∀ k, 0 < k → k < ncol → Fillable (column ncol record k)

end Opm.Deck
