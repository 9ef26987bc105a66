import Verif.Core.Stream
/-!
# Reading values from decks

Models `opm/core/io/eclipse/EclipseGridParserHelpers.hpp`.
-/

namespace Opm.Deck
open Opm Istream

/-- `ignoreLine`.  Models: `EclipseGridParserHelpers.hpp:53-57`. -/
def ignoreLine (s : S) : S := ignoreTo '\n' s

/-- `ignoreSlashLine`.  Models: `EclipseGridParserHelpers.hpp:59-64`. -/
def ignoreSlashLine (s : S) : S := ignoreTo '\n' (ignoreTo '/' s)

/-- `ignoreWhitespace`, with `n` at least the number of characters.  Models: `EclipseGridParserHelpers.hpp:66-79`. -/
def ignoreWsLoop : Nat → S → S
  | 0, s => s
  | n + 1, s =>
    match get s with
    | (none, s) => s
    | (some c, s) => if isSpace c then ignoreWsLoop n s else putback c s

def ignoreWhitespace (s : S) : S := ignoreWsLoop (s.rest.length + 1) s

/-- A pass of a loop: it goes on or ends. -/
inductive Pass (α : Type) where
  | more (x : α)
  | last (x : α)

/-- `while (is) { … } if (!is) THROW`: the passes of a loop that throws if the stream is not usable after it.
Models: `EclipseGridParserHelpers.hpp:96`, `:126-128`. -/
def passes {α : Type} (step : α → S → M (Pass (α × S))) : Nat → α → S → M (α × S)
  | 0, _, _ => .error .timeout
  | n + 1, x, s =>
    if s.fail then .error .thrown
    else do
      match ← step x s with
      | .more (x, s) => passes step n x s
      | .last (x, s) => if s.fail then .error .thrown else .ok (x, s)

section
variable {T : Type} (N : Num T)

/-- After a failure to read a number: the end of the record, a comment, or an error.  At the end of the file `dummy` is indeterminate; whatever it
is, the function throws.  Models: `EclipseGridParserHelpers.hpp:100-114`. -/
def vectorEnd (data : List T) (s : S) : M (Pass (List T × S)) :=
  match getChar (ignoreWhitespace (clearFail s)) with
  | (none, _) => .error .thrown
  | (some c, s) =>
    if c = '/' then .ok (.last (data, ignoreLine s))
    else if c = '-' then .ok (.more (data, ignoreLine s))
    else .error .thrown

/-- `n*v`; a negative count throws in `insert`, and a missing value ends the loop with an exception.
Models: `EclipseGridParserHelpers.hpp:117-120`. -/
def vectorRepeat (data : List T) (v : T) (s : S) : M (Pass (List T × S)) := do
  let n ← N.toInt v
  match extract N (ignoreOne s) with
  | (none, _) => .error .thrown
  | (some w, s) => if n < 0 then .error .thrown else .ok (.more (data ++ List.replicate n.toNat w, s))

/-- A pass of `readVectorData`.  Models: `EclipseGridParserHelpers.hpp:96-125`. -/
def vectorStep (data : List T) (s : S) : M (Pass (List T × S)) :=
  match extract N s with
  | (none, s) => vectorEnd data s
  | (some v, s) => if (peek s).1 = some '*' then vectorRepeat N data v (peek s).2 else .ok (.more (data ++ [v], (peek s).2))

/-- `readVectorData(is, data)`: the data and the stream.  Models: `EclipseGridParserHelpers.hpp:91-129`. -/
def readVectorData (s : S) : M (List T × S) := passes (vectorStep N) (s.rest.length + 2) [] s

/-! ### Records with defaults -/

/-- After a failure to read a number.  Models: `EclipseGridParserHelpers.hpp:146-156`. -/
def tokenEnd {α : Type} (x : α) (s : S) : M (Pass (α × S)) :=
  let t := getString (clearFail s)
  if t.1 = ['/'] then .ok (.last (x, ignoreLine t.2))
  else if t.1.head? = some '-' then .ok (.more (x, ignoreLine t.2))
  else .error .thrown

/-- `data[num_values] = candidate`, `n` times.  Models: `EclipseGridParserHelpers.hpp:165-167`. -/
def fillFrom (buf : List T) (at_ : Int) (n : Nat) (v : T) : M (List T) := loop n (fun i b => wrI b (at_ + i) v) buf

/-- `if (num_values >= max_values) break;`.  Models: `EclipseGridParserHelpers.hpp:174-177`. -/
def stopAt (maxv : Int) (x : (List T × Int) × S) : Pass ((List T × Int) × S) := if maxv ≤ x.1.2 then .last x else .more x

/-- `n*v` and `n*`; if there is no value after the asterisk, some value is written and the function throws later.
Models: `EclipseGridParserHelpers.hpp:159-168`. -/
def defaultedRepeat (maxv : Int) (x : List T × Int) (v : T) (s : S) : M (Pass ((List T × Int) × S)) := do
  let n ← N.toInt v
  let p := peek (ignoreOne s)
  if (p.1.map isSpace).getD false then .ok (stopAt maxv ((x.1, x.2 + n), p.2))
  else
    match extract N p.2 with
    | (none, _) => do
      let _ ← fillFrom x.1 x.2 n.toNat v
      .error .thrown
    | (some w, s) => do
      let b ← fillFrom x.1 x.2 n.toNat w
      .ok (stopAt maxv ((b, x.2 + n.toNat), s))

/-- A pass of `readDefaultedVectorData`.  Models: `EclipseGridParserHelpers.hpp:142-178`. -/
def defaultedStep (maxv : Int) (x : List T × Int) (s : S) : M (Pass ((List T × Int) × S)) :=
  match extract N s with
  | (none, s) => do
    match ← tokenEnd x s with
    | .more y => .ok (stopAt maxv y)
    | .last y => .ok (.last y)
  | (some v, s) =>
    if (peek s).1 = some '*' then defaultedRepeat N maxv x v (peek s).2
    else do
      let b ← wrI x.1 x.2 v
      .ok (stopAt maxv ((b, x.2 + 1), (peek s).2))

/-- `readDefaultedVectorData(is, data, max_values)`: the data, the number of values and the stream.
Models: `EclipseGridParserHelpers.hpp:132-183`. -/
def readDefaulted (buf : List T) (maxv : Int) (s : S) : M ((List T × Int) × S) := do
  check (decide (maxv ≤ buf.length))
  passes (defaultedStep N maxv) (s.rest.length + 2) (buf, 0) s

end

end Opm.Deck
