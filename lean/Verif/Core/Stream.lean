import Verif.Core.Mem
import Mathlib.Data.Rat.Defs
import Mathlib.Algebra.Order.Field.Rat
/-!
# Input streams

The part of `std::istream` the deck reader uses, as the C++ standard and libstdc++ define it.  `bad` is not modelled (reading from the buffer
itself never fails).
-/

namespace Opm.Istream
open Opm

/-- `std::isspace` in the classic locale. -/
def isSpace (c : Char) : Bool := c = ' ' ∨ c = '\t' ∨ c = '\n' ∨ c = '\x0b' ∨ c = '\x0c' ∨ c = '\r'

/-- `std::isdigit` in the classic locale. -/
def isDig (c : Char) : Bool := c ∈ ['0', '1', '2', '3', '4', '5', '6', '7', '8', '9']

/-- `std::isalpha` in the classic locale. -/
def isAlph (c : Char) : Bool := (65 ≤ c.toNat ∧ c.toNat ≤ 90) ∨ (97 ≤ c.toNat ∧ c.toNat ≤ 122)

/-- What is still to be read, and `eofbit` and `failbit`. -/
structure S where
  rest : List Char
  eof : Bool := false
  fail : Bool := false
  deriving DecidableEq, Repr

/-- `good()`. -/
def S.good (s : S) : Bool := !s.eof && !s.fail

/-- `istream::sentry(is, noskipws)`: the stream and whether reading may begin. -/
def sentry (noskip : Bool) (s : S) : S × Bool :=
  if s.good then
    if noskip then (s, true)
    else match s.rest.dropWhile isSpace with
      | [] => (⟨[], true, true⟩, false)
      | c :: r => (⟨c :: r, false, false⟩, true)
  else ({ s with fail := true }, false)

/-- `is.get(c)`. -/
def get (s : S) : Option Char × S :=
  match sentry true s with
  | (s, false) => (none, s)
  | (s, true) => match s.rest with
    | [] => (none, ⟨[], true, true⟩)
    | c :: r => (some c, { s with rest := r })

/-- `is.peek()`; `none` for the end of the file. -/
def peek (s : S) : Option Char × S :=
  match sentry true s with
  | (s, false) => (none, s)
  | (s, true) => match s.rest with
    | [] => (none, { s with eof := true })
    | c :: _ => (some c, s)

/-- `is.putback(c)` of a character just read. -/
def putback (c : Char) (s : S) : S :=
  match sentry true { s with eof := false } with
  | (s, false) => s
  | (s, true) => { s with rest := c :: s.rest }

/-- What follows the first `d`. -/
def after (d : Char) : List Char → Option (List Char)
  | [] => none
  | c :: r => if c = d then some r else after d r

/-- `is.ignore(std::numeric_limits<int>::max(), d)` (for less than 2³¹ characters). -/
def ignoreTo (d : Char) (s : S) : S :=
  match sentry true s with
  | (s, false) => s
  | (s, true) => match after d s.rest with
    | none => { s with rest := [], eof := true }
    | some r => { s with rest := r }

/-- `is.ignore()`: one character. -/
def ignoreOne (s : S) : S :=
  match sentry true s with
  | (s, false) => s
  | (s, true) => match s.rest with
    | [] => { s with eof := true }
    | _ :: r => { s with rest := r }

/-- `is >> c` for a character. -/
def getChar (s : S) : Option Char × S :=
  match sentry false s with
  | (s, false) => (none, s)
  | (s, true) => match s.rest with
    | [] => (none, ⟨[], true, true⟩)
    | c :: r => (some c, { s with rest := r })

/-- `is >> str` for an empty string `str`: the string afterwards. -/
def getString (s : S) : List Char × S :=
  match sentry false s with
  | (s, false) => ([], s)
  | (s, true) =>
    let r := s.rest.dropWhile (fun c => !isSpace c)
    (s.rest.takeWhile (fun c => !isSpace c), { s with rest := r, eof := r.isEmpty })

/-- `is.clear(is.rdstate() & ~std::ios::failbit)`. -/
def clearFail (s : S) : S := { s with fail := false }

/-! ### Numbers -/

/-- A type of numbers: how `num_get` reads it (the value, if valid, and what remains), and the conversion to `int`. -/
structure Num (T : Type) where
  scan : List Char → Option T × List Char
  toInt : T → M Int

/-- `is >> x` for a number; `none` if `failbit` is set. -/
def extract {T : Type} (N : Num T) (s : S) : Option T × S :=
  match sentry false s with
  | (s, false) => (none, s)
  | (s, true) => ((N.scan s.rest).1, ⟨(N.scan s.rest).2, (N.scan s.rest).2.isEmpty, (N.scan s.rest).1.isNone⟩)

/-- The number a string of digits stands for. -/
def ofDigits (ds : List Char) : Nat := ds.foldl (fun a c => 10 * a + (c.toNat - 48)) 0

/-- An optional sign: whether it is a minus, and what follows. -/
def scanSign : List Char → Bool × List Char
  | '-' :: r => (true, r)
  | '+' :: r => (false, r)
  | r => (false, r)

/-- With the sign. -/
def signed (neg : Bool) (n : Nat) : Int := if neg then -(n : Int) else n

/-- The values of `int`. -/
def InInt (x : Int) : Prop := -2147483648 ≤ x ∧ x ≤ 2147483647

instance (x : Int) : Decidable (InInt x) := inferInstanceAs (Decidable (_ ∧ _))

/-- `num_get` for `int`: a value out of range sets `failbit`. -/
def scanInt (s : List Char) : Option Int × List Char :=
  let r := (scanSign s).2
  let ds := r.takeWhile isDig
  let x := signed (scanSign s).1 (ofDigits ds)
  (if ds ≠ [] ∧ InInt x then some x else none, r.dropWhile isDig)

/-- `int`. -/
def intNum : Num Int := ⟨scanInt, fun x => .ok x⟩

/-- A fraction after the point. -/
def scanFrac : List Char → List Char × List Char
  | '.' :: r => (r.takeWhile isDig, r.dropWhile isDig)
  | r => ([], r)

/-- An exponent: `none` if there is none, otherwise its sign and digits; and what follows. -/
def scanExp (found : Bool) : List Char → Option (Bool × List Char) × List Char
  | c :: r =>
    if found ∧ (c = 'e' ∨ c = 'E') then
      let q := scanSign r
      (some (q.1, q.2.takeWhile isDig), q.2.dropWhile isDig)
    else (none, c :: r)
  | [] => (none, [])

/-- The value of a mantissa with digits `a`.`b` and an exponent. -/
def realValue (neg : Bool) (a b : List Char) (e : Int) : Rat := (signed neg (ofDigits (a ++ b)) : Int) * (10 : Rat) ^ (e - b.length)

/-- `num_get` for `double`, without rounding and overflow. -/
def scanReal (s : List Char) : Option Rat × List Char :=
  let r := (scanSign s).2
  let a := r.takeWhile isDig
  let f := scanFrac (r.dropWhile isDig)
  let e := scanExp (decide (a ++ f.1 ≠ [])) f.2
  (if a ++ f.1 = [] then none
    else match e.1 with
      | none => some (realValue (scanSign s).1 a f.1 0)
      | some (n, ds) => if ds = [] then none else some (realValue (scanSign s).1 a f.1 (signed n (ofDigits ds))), e.2)

/-- The conversion of a `double` to `int`: towards zero; undefined if the result is out of range. -/
def truncate (q : Rat) : M Int :=
  let x := if 0 ≤ q then q.floor else -((-q).floor)
  if InInt x then .ok x else .error .ub

/-- `double`. -/
def realNum : Num Rat := ⟨scanReal, truncate⟩

end Opm.Istream
