import Verif.Model.Param
/-! # Specification of parameter groups -/

namespace Opm.Param

/-- The component of a path: non-empty, without `/`. -/
def Comp (c : Name) : Prop := c ≠ [] ∧ '/' ∉ c

/-- A name `a/b/c` built from its components. -/
def join : List Name → Name
  | [] => []
  | [c] => c
  | c :: cs => c ++ '/' :: join cs

/-- `Spells n cs`: the name `n` denotes the path `cs`.  Leading slashes, repeated slashes between components and one trailing slash
are allowed. -/
inductive Spells : Name → List Name → Prop
  | single {c} : Comp c → Spells c [c]
  | trailing {c} : Comp c → Spells (c ++ ['/']) [c]
  | lead {n cs} : Spells n cs → Spells ('/' :: n) cs
  | cons {c n cs} : Comp c → Spells n cs → Spells (c ++ '/' :: n) (c :: cs)

/-- What is stored at exactly the path `cs`. -/
def lookup : Map → List Name → Option Item
  | _, [] => none
  | m, [c] => find m c
  | m, c :: cs =>
    match find m c with
    | some (.group g) => lookup g cs
    | _ => none

/-- The value of the parameter at exactly the path `cs`. -/
def value (m : Map) (cs : List Name) : Option Name :=
  match lookup m cs with
  | some (.param v _) => some v
  | _ => none

/-- The path does not lead through a plain parameter. -/
def Passable (m : Map) (cs : List Name) : Prop :=
  ∀ p q v t, cs = p ++ q → p ≠ [] → q ≠ [] → lookup m p ≠ some (.param v t)

/-- The groups from `stack` (innermost first) that remain when looking outward for the first one that defines `c`. -/
def outward (stack : List Map) (c : Name) : List Map := stack.dropWhile (fun g => (find g c).isNone)

/-- Resolution of a path from the innermost group of `stack`: each component is looked up outward, the next one from the group
found. -/
def resolve : List Map → List Name → P Item
  | _, [] => .error .notFound
  | stack, c :: cs =>
    match outward stack c with
    | [] => .error .notFound
    | g :: ps =>
      match find g c with
      | none => .error .notFound
      | some it =>
        if cs = [] then .ok it
        else
          match it with
          | .param _ _ => .error .badCast
          | .group h => resolve (h :: g :: ps) cs

/-- A name that can appear as a component in a parameter file. -/
def SafeKey (k : Name) : Prop := Comp k ∧ '=' ∉ k ∧ '\n' ∉ k

/-- A value that can appear in a parameter file: no `=`, no comment marker, no line break. -/
def SafeVal (v : Name) : Prop := '=' ∉ v ∧ ¬ ['/', '/'] <:+: v ∧ '\n' ∉ v

mutual
/-- The contents of a group can be written: the names are distinct and, like the values, safe, and no subgroup is empty. -/
def SafeItems : Map → Prop
  | [] => True
  | (k, it) :: m => SafeKey k ∧ (∀ p ∈ m, p.1 ≠ k) ∧ SafeItem it ∧ SafeItems m

def SafeItem : Item → Prop
  | .param v _ => SafeVal v
  | .group g => g ≠ [] ∧ SafeItems g
end

end Opm.Param
