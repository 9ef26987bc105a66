import Verif.Model.DeckReader
import Verif.Model.Interp
/-!
# Reading tables from decks

Models the table readers of `opm/core/io/eclipse/EclipseGridParserHelpers.hpp`.
-/

namespace Opm.Deck
open Opm Istream

/-- What comes next: another record, the next keyword, or something else.  Models: `EclipseGridParserHelpers.hpp:268`. -/
inductive Action where
  | more
  | done
  | bad
  deriving DecidableEq, Repr

/-- What a character in front of the next record means; `none` for a comment.  Models: `EclipseGridParserHelpers.hpp:280-292`. -/
def actionOf (c : Char) : Option Action :=
  if isDig c ∨ c = '.' then some .more
  else if isAlph c then some .done
  else if c = '-' then none
  else some .bad

/-- The loop of `next_action`; `n` bounds the passes.  On a stream that has failed without reaching its end, an indeterminate character is
examined.  Models: `EclipseGridParserHelpers.hpp:272-294`. -/
def nextActionLoop : Nat → S → M (Action × S)
  | 0, _ => .error .timeout
  | n + 1, s =>
    if s.eof then .ok (.more, s)
    else match Istream.get (ignoreWhitespace s) with
      | (none, s) => if s.eof then .ok (.more, s) else .error .ub
      | (some c, s) => match actionOf c with
        | some a => .ok (a, putback c s)
        | none => nextActionLoop n (ignoreLine (putback c s))

/-- `next_action(is)`.  Models: `EclipseGridParserHelpers.hpp:266-296`. -/
def nextAction (s : S) : M (Action × S) := nextActionLoop (s.rest.length + 2) s

/-- The values of a record as columns: `table[k][i] = record[++n]`; what is left of an incomplete row is not used.  The columns
start with `rec_size` zeros (in the program, a part of the previous record's columns may be left, all of which is
overwritten).  Models: `EclipseGridParserHelpers.hpp:357-365`. -/
def toColumns (ncol : Nat) (record : List Rat) : M (List (List Rat)) :=
  if ncol = 0 then .error .ub
  else
    loop (record.length / ncol) (fun i t =>
      loop ncol (fun k t => do
        let v ← rd record (i * ncol + k)
        let col ← rd t k
        let col ← wr col i v
        wr t k col) t) (List.replicate ncol (List.replicate (record.length / ncol) 0))

/-- The loop of `readPvdTable` and `readSGWOF`: `record` reads a record and makes a table of it.  The loops are the same; only the reading
differs.  Models: `EclipseGridParserHelpers.hpp:354-377`, `:430-453`. -/
def tableLoop (record : S → M (List (List Rat) × S)) : Nat → List (List (List Rat)) → S → M (List (List (List Rat)) × S)
  | 0, _, _ => .error .timeout
  | n + 1, ts, s =>
    if s.eof then .ok (ts, s)
    else do
      let r ← record s
      let a ← nextAction r.2
      match a.1 with
      | .more => tableLoop record n (ts ++ [r.1]) a.2
      | .done => .ok (ts ++ [r.1], a.2)
      | .bad => .error .thrown

/-- A record of `readPvdTable`.  Models: `EclipseGridParserHelpers.hpp:355-365`. -/
def pvdRecord (ncol : Nat) (s : S) : M (List (List Rat) × S) := do
  let r ← readVectorData realNum s
  let t ← toColumns ncol r.1
  .ok (t, r.2)

/-- `readPvdTable(is, pvd_table, field_name, ncol)`.  Models: `EclipseGridParserHelpers.hpp:349-378`. -/
def readPvdTable (ncol : Nat) (ts : List (List (List Rat))) (s : S) : M (List (List (List Rat)) × S) := tableLoop (pvdRecord ncol) (s.rest.length + 2) ts s

/-! ### Tables of relative permeabilities -/

/-- A pass of `readRelPermTable`.  Models: `EclipseGridParserHelpers.hpp:194-217`. -/
def relPermStep (data : List Rat) (s : S) : M (Pass (List Rat × S)) :=
  match extract realNum s with
  | (none, s) => tokenEnd data s
  | (some v, s) =>
    if (peek s).1 = some '*' then do
      let n ← realNum.toInt v
      check (decide (n = 1))
      .ok (.more (data ++ [-1], ignoreOne (peek s).2))
    else .ok (.more (data ++ [v], (peek s).2))

/-- `readRelPermTable(is, data)`.  Models: `EclipseGridParserHelpers.hpp:190-221`. -/
def readRelPermTable (s : S) : M (List Rat × S) := passes relPermStep (s.rest.length + 2) [] s

/-- The rows with a value in this column.  Models: `EclipseGridParserHelpers.hpp:399-404`. -/
def knownRows (xs col : List Rat) : List (Rat × Rat) := (xs.zip col).filter (fun p => p.2 ≠ -1)

/-- A value of a column: kept, zero if the column has no values, or interpolated.  Models: `EclipseGridParserHelpers.hpp:405-421`. -/
def fillValue (known : List (Rat × Rat)) (x y : Rat) : M Rat :=
  if y = -1 then
    if known = [] then .ok 0
    else Interp.linearInterpolation (known.map Prod.fst) (known.map Prod.snd) x
  else .ok y

/-- A column without its default values (`col` has as many values as the first column `xs`).  Models: `EclipseGridParserHelpers.hpp:389-422`. -/
def fillColumn (xs col : List Rat) : M (List Rat) := (xs.zip col).mapM (fun p => fillValue (knownRows xs col) p.1 p.2)

/-- `insertDefaultValues(table, ncol)`; all columns have the same length.  Models: `EclipseGridParserHelpers.hpp:381-424`. -/
def insertDefaultValues (ncol : Nat) (t : List (List Rat)) : M (List (List Rat)) := do
  let xs ← rd t 0
  loop (ncol - 1) (fun k t => do
    let col ← rd t (k + 1)
    let col ← fillColumn xs col
    wr t (k + 1) col) t

/-- A record of `readSGWOF`.  Models: `EclipseGridParserHelpers.hpp:431-442`. -/
def sgwofRecord (ncol : Nat) (s : S) : M (List (List Rat) × S) := do
  let r ← readRelPermTable s
  let t ← toColumns ncol r.1
  let t ← insertDefaultValues ncol t
  .ok (t, r.2)

/-- `readSGWOF(is, relperm_table, field_name, ncol)`.  Models: `EclipseGridParserHelpers.hpp:425-454`. -/
def readSGWOF (ncol : Nat) (ts : List (List (List Rat))) (s : S) : M (List (List (List Rat)) × S) := tableLoop (sgwofRecord ncol) (s.rest.length + 2) ts s

/-! ### Tables of live fluids -/

/-- What happens between records of a live-fluid table.  Models: `EclipseGridParserHelpers.hpp:323-344`. -/
inductive PvtNext where
  | record
  | keyword
  | comment
  | slash
  | bad
  deriving DecidableEq, Repr

def pvtNext (c : Char) : PvtNext :=
  if isDig c ∨ c = '.' then .record
  else if isAlph c then .keyword
  else if c = '-' then .comment
  else if c = '/' then .slash
  else .bad

/-- How the inner loop ends: another record follows or the function returns. -/
inductive PvtEnd where
  | again (tables : List (List (List Rat))) (table : List (List Rat)) (s : S)
  | ret (tables : List (List (List Rat))) (s : S)
  deriving DecidableEq, Repr

/-- The inner loop: the tables and the records of the table being read.  Models: `EclipseGridParserHelpers.hpp:310-345`. -/
def pvtInner : Nat → List (List (List Rat)) → List (List Rat) → S → M PvtEnd
  | 0, _, _, _ => .error .timeout
  | n + 1, ts, t, s =>
    if s.eof then .ok (.again ts t s)
    else match Istream.get (ignoreWhitespace s) with
      | (none, s) => if s.eof then (if t = [] then .ok (.ret ts s) else .error .thrown) else .error .ub
      | (some c, s) => match pvtNext c with
        | .record => .ok (.again ts t (putback c s))
        | .keyword => .ok (.ret ts (putback c s))
        | .comment => pvtInner n ts t (ignoreLine (putback c s))
        | .slash => pvtInner n (ts ++ [t]) [] (ignoreLine (putback c s))
        | .bad => .error .thrown

/-- The outer loop.  Models: `EclipseGridParserHelpers.hpp:306-346`. -/
def pvtLoop : Nat → List (List (List Rat)) → List (List Rat) → S → M (List (List (List Rat)) × S)
  | 0, _, _, _ => .error .timeout
  | n + 1, ts, t, s =>
    if s.eof then .ok (ts, s)
    else do
      let r ← readVectorData realNum s
      match ← pvtInner (r.2.rest.length + 2) ts (t ++ [r.1]) r.2 with
      | .again ts t s => pvtLoop n ts t s
      | .ret ts s => .ok (ts, s)

/-- `readPvtTable(is, pvt_table, field_name)`.  Models: `EclipseGridParserHelpers.hpp:298-347`. -/
def readPvtTable (ts : List (List (List Rat))) (s : S) : M (List (List (List Rat)) × S) := pvtLoop (s.rest.length + 2) ts [] s

end Opm.Deck
