import Verif.Core.Stream
/-!
# The text of decks

How numbers, repeat counts, defaults and comments are written, and what they mean.  Independent of the functions that read them.
-/

namespace Opm.Deck
open Opm Istream

/-- Digits. -/
abbrev Digits := List (Fin 10)

def digitChar (d : Fin 10) : Char := Char.ofNat (48 + d.val)

def Digits.text (ds : Digits) : List Char := ds.map digitChar

def Digits.val (ds : Digits) : Nat := ds.foldl (fun a d => 10 * a + d.val) 0

/-- No sign, plus or minus. -/
inductive Sign where
  | none
  | plus
  | minus
  deriving DecidableEq

def Sign.text : Sign → List Char
  | .none => []
  | .plus => ['+']
  | .minus => ['-']

def Sign.app : Sign → Rat → Rat
  | .minus, x => -x
  | _, x => x

/-- An integer. -/
structure IntLit where
  sign : Sign
  digits : Digits

def IntLit.text (l : IntLit) : List Char := l.sign.text ++ l.digits.text

def IntLit.val (l : IntLit) : Int :=
  match l.sign with
  | .minus => -(l.digits.val : Int)
  | _ => l.digits.val

structure IntLit.Ok (l : IntLit) : Prop where
  digits : l.digits ≠ []
  range : InInt l.val

/-- A decimal number: digits, perhaps a point and more digits, perhaps an exponent. -/
structure RealLit where
  sign : Sign
  whole : Digits
  frac : Option Digits
  exp : Option (Bool × IntLit)

def fracText : Option Digits → List Char
  | none => []
  | some f => '.' :: f.text

def expText : Option (Bool × IntLit) → List Char
  | none => []
  | some (big, e) => (if big then 'E' else 'e') :: e.text

def RealLit.text (l : RealLit) : List Char := l.sign.text ++ l.whole.text ++ fracText l.frac ++ expText l.exp

/-- The digits after the point. -/
def RealLit.fracDigits (l : RealLit) : Digits := l.frac.getD []

/-- The exponent. -/
def RealLit.expVal (l : RealLit) : Int :=
  match l.exp with
  | none => 0
  | some (_, e) => e.val

/-- `whole.frac × 10^exp`. -/
def RealLit.val (l : RealLit) : Rat :=
  l.sign.app (((l.whole.val : Rat) + (l.fracDigits.val : Rat) / (10 : Rat) ^ l.fracDigits.length) * (10 : Rat) ^ l.expVal)

structure RealLit.Ok (l : RealLit) : Prop where
  digits : l.whole ++ l.fracDigits ≠ []
  exp : ∀ b e, l.exp = some (b, e) → e.digits ≠ []

/-- Values with a text. -/
structure Lit (T : Type) where
  text : List Char
  val : T

/-- The text and value of an integer. -/
def IntLit.lit (l : IntLit) : Lit Int := ⟨l.text, l.val⟩

/-- The text and value of a decimal number. -/
def RealLit.lit (l : RealLit) : Lit Rat := ⟨l.text, l.val⟩

/-- The literals of a type. -/
def IsInt (l : Lit Int) : Prop := ∃ i : IntLit, i.Ok ∧ l = i.lit

def IsReal (l : Lit Rat) : Prop := ∃ r : RealLit, r.Ok ∧ l = r.lit

/-! ### Records -/

/-- A value, a repeated value `n*v`, or `n` defaults `n*`; counts are given by their text. -/
inductive Item (T : Type) where
  | one (v : Lit T)
  | rep (n : Nat) (count v : Lit T)
  | dflt (n : Nat) (count : Lit T)

def Item.text {T : Type} : Item T → List Char
  | .one v => v.text
  | .rep _ c v => c.text ++ '*' :: v.text
  | .dflt _ c => c.text ++ ['*']

/-- How many values an item stands for. -/
def Item.size {T : Type} : Item T → Nat
  | .one _ => 1
  | .rep n _ _ => n
  | .dflt n _ => n

/-- The values an item stands for; `none` for a default. -/
def Item.vals {T : Type} : Item T → List (Option T)
  | .one v => [some v.val]
  | .rep n _ v => List.replicate n (some v.val)
  | .dflt n _ => List.replicate n none

/-- The item is well-formed: its literals are, and the count is the one given (a number of type `int`). -/
def Item.Ok {T : Type} (L : Lit T → Prop) (ofNat : Nat → T) : Item T → Prop
  | .one v => L v
  | .rep n c v => L c ∧ c.val = ofNat n ∧ n ≤ 2147483647 ∧ L v
  | .dflt n c => L c ∧ c.val = ofNat n ∧ n ≤ 2147483647

/-- What may stand between items: blanks and comments. -/
inductive Gap where
  | blank (c : Char)
  | comment (text : List Char)

def Gap.text : Gap → List Char
  | .blank c => [c]
  | .comment t => '-' :: '-' :: t ++ ['\n']

def Gap.Ok : Gap → Prop
  | .blank c => isSpace c = true
  | .comment t => '\n' ∉ t

def gaps (gs : List Gap) : List Char := gs.flatMap Gap.text

/-- The items of a record with what stands before each of them. -/
def itemsText {T : Type} (its : List (List Gap × Item T)) : List Char := its.flatMap (fun x => gaps x.1 ++ x.2.text)

/-- A record: items, and a slash, the rest of whose line is ignored. -/
structure Record (T : Type) where
  items : List (List Gap × Item T)
  gap : List Gap
  remark : List Char

def Record.text {T : Type} (r : Record T) : List Char := itemsText r.items ++ gaps r.gap ++ '/' :: r.remark ++ ['\n']

/-- The values of a record. -/
def Record.vals {T : Type} (r : Record T) : List (Option T) := r.items.flatMap (fun x => x.2.vals)

/-- Items are separated by at least a blank or a comment. -/
structure Record.Ok {T : Type} (L : Lit T → Prop) (ofNat : Nat → T) (r : Record T) : Prop where
  items : ∀ x ∈ r.items, x.2.Ok L ofNat ∧ ∀ g ∈ x.1, g.Ok
  apart : ∀ x ∈ r.items.tail, x.1 ≠ []
  gap : ∀ g ∈ r.gap, g.Ok
  remark : '\n' ∉ r.remark

/-- Defaults are followed by a blank; `r` is what follows the items. -/
def DefaultsBlank {T : Type} : List (List Gap × Item T) → List Char → Prop
  | [], _ => True
  | x :: its, r => ((∃ n c, x.2 = .dflt n c) → ∃ c t, itemsText its ++ r = c :: t ∧ isSpace c = true) ∧ DefaultsBlank its r

/-- The first values of `buf` replaced by those given; defaults keep the old ones. -/
def overlay {T : Type} : List (Option T) → List T → List T
  | [], buf => buf
  | _ :: _, [] => []
  | v :: vs, b :: buf => v.getD b :: overlay vs buf

/-- The values of items. -/
def valsOf {T : Type} (its : List (List Gap × Item T)) : List (Option T) := its.flatMap (fun x => x.2.vals)

/-- The next character ends a number. -/
def Stop (r : List Char) : Prop := ∀ c, r.head? = some c → isSpace c = true ∨ c = '-' ∨ c = '*' ∨ c = '/'

/-- What may follow an item. -/
structure Follows (r : List Char) : Prop where
  stop : Stop r
  some : r ≠ []
  star : r.head? ≠ Option.some '*'

end Opm.Deck
