import Verif.Core.Mem
/-!
# Parameter groups

Models `opm/core/utility/parameters/ParameterGroup.cpp`, `ParameterGroup_impl.hpp`, `ParameterTools.cpp` and the string and
boolean conversions of `Parameter.hpp`.  A `std::string` is a list of characters.  A `std::map` is an association list kept in key
order by `assign`.  The tree of groups is a value, so the parent of a group is the group that contains it (as set up by
`insertParameter`); the path of a group is the sequence of names leading to it.  The `used` flags and the terminal output are not
modelled.  Positions fit in an `int`.
-/

namespace Opm.Param

/-- A string. -/
abbrev Name := List Char

/-- The ways in which a call can fail to return. -/
inductive Fail where
  /-- `NotFoundException` -/
  | notFound
  /-- `WrongTypeException` -/
  | wrongType
  /-- `RequirementFailedException` -/
  | requirement
  /-- `std::bad_cast` from a `dynamic_cast` of a reference -/
  | badCast
  /-- the call has not returned when the fuel runs out -/
  | hang
  deriving DecidableEq, Repr

/-- Outcome of a call. -/
abbrev P (α : Type) := Except Fail α

/-- A node of the tree: a parameter with its value and type, or a group.  Models: `Parameter.hpp:50-76`, `ParameterGroup.hpp:272-283`. -/
inductive Item where
  | param (value type : Name)
  | group (m : List (Name × Item))

/-- The contents of a group. -/
abbrev Map := List (Name × Item)

/-- `map_.find(k)`. -/
def find (m : Map) (k : Name) : Option Item := m.lookup k

/-- Lexicographic order of strings, as used by `std::map<std::string, _>`. -/
def ltName : Name → Name → Bool
  | _, [] => false
  | [], _ :: _ => true
  | a :: as, b :: bs => if a.val < b.val then true else if b.val < a.val then false else ltName as bs

/-- `map_[k] = v`. -/
def assign (k : Name) (v : Item) : Map → Map
  | [] => [(k, v)]
  | (k', v') :: m =>
    if k = k' then (k, v) :: m
    else if ltName k k' then (k, v) :: (k', v') :: m
    else (k', v') :: assign k v m

/-- `ID_param_type__cmdline`.  Models: `ParameterStrings.hpp:61`. -/
def cmdline : Name := "cmdline".toList

/-- `split(name)`: the part before and the part after the first `/`.  Models: `ParameterTools.cpp:44-53`. -/
def split (name : Name) : Name × Name :=
  (name.takeWhile (fun c => c ≠ '/'), (name.dropWhile (fun c => c ≠ '/')).drop 1)

/-- The loop `while (name_path.first == "")` of `insertParameter`.  Models: `ParameterGroup.cpp:210-212`. -/
def skipEmpty : Nat → Name × Name → P (Name × Name)
  | 0, _ => .error .hang
  | k + 1, p => if p.1 = [] then skipEmpty k (split p.2) else .ok p

/-- The rest of `insertParameter`; `rec` is the recursive call on a child group.  Models: `ParameterGroup.cpp:213-242`. -/
def insertBody (rec : Map → Name → P Map) (m : Map) (value : Name) (p : Name × Name) : P Map :=
  match find m p.1 with
  | none =>
    if p.2 = [] then .ok (assign p.1 (.param value cmdline) m)
    else do
      let child ← rec [] p.2
      .ok (assign p.1 (.group child) m)
  | some it =>
    if p.2 = [] then .ok (assign p.1 (.param value cmdline) m)
    else
      match it with
      | .param _ _ => .error .badCast
      | .group g => do
        let g ← rec g p.2
        .ok (assign p.1 (.group g) m)

/-- `insertParameter(name, value)`.  Models: `ParameterGroup.cpp:206-243`. -/
def insertParameter : Nat → Map → Name → Name → P Map
  | 0, _, _, _ => .error .hang
  | k + 1, m, name, value => do
    let p ← skipEmpty (k + 1) (split name)
    insertBody (fun g n => insertParameter k g n value) m value p

/-- `has(name)`.  Models: `ParameterGroup.cpp:70-82`. -/
def has : Nat → Map → Name → P Bool
  | 0, _, _ => .error .hang
  | k + 1, m, name =>
    match find m (split name).1 with
    | none => .ok false
    | some it =>
      if (split name).2 = [] then .ok true
      else
        match it with
        | .param _ _ => .error .badCast
        | .group g => has k g (split name).2

/-- `get<T>(name, r)` called on group `g` whose enclosing groups are `ps`, innermost first; `tr` is `translate<T>`.
Models: `ParameterGroup_impl.hpp:172-217`. -/
def get {α : Type} (tr : Item → P α) : Nat → Map → List Map → Name → P α
  | 0, _, _, _ => .error .hang
  | k + 1, g, ps, name =>
    match find g (split name).1 with
    | none =>
      match ps with
      | p :: ps => get tr k p ps name
      | [] => .error .notFound
    | some it =>
      if (split name).2 = [] then tr it
      else
        match it with
        | .param _ _ => .error .badCast
        | .group h => get tr k h (g :: ps) (split name).2

/-- `getDefault<T>(name, default_value, r)`; `chk` is the test of the default value against the requirement.
Models: `ParameterGroup_impl.hpp:226-286`. -/
def getDefault {α : Type} (tr : Item → P α) (dflt : α) (chk : α → Bool) : Nat → Map → List Map → Name → P α
  | 0, _, _, _ => .error .hang
  | k + 1, g, ps, name =>
    match find g (split name).1 with
    | none =>
      match ps with
      | p :: ps => getDefault tr dflt chk k p ps name
      | [] => if chk dflt then .ok dflt else .error .requirement
    | some it =>
      if (split name).2 = [] then tr it
      else
        match it with
        | .param _ _ => .error .badCast
        | .group h => getDefault tr dflt chk k h (g :: ps) (split name).2

/-- `correct_type(parameter, type)`.  Models: `Parameter.cpp:57-72`. -/
def typeOk (have_ want : Name) : Bool := have_ == want || have_ == cmdline

/-- `ParameterMapItemTrait<std::string>::convert`.  Models: `Parameter.hpp:189-204`. -/
def toStr : Item → P Name
  | .group _ => .error .wrongType
  | .param v t => if typeOk t "string".toList then .ok v else .error .wrongType

/-- `ParameterMapItemTrait<bool>::convert`.  Models: `Parameter.hpp:155-180`. -/
def toBool : Item → P Bool
  | .group _ => .error .wrongType
  | .param v t =>
    if typeOk t "bool".toList then
      if v = "true".toList then .ok true
      else if v = "false".toList then .ok false
      else .error .wrongType
    else .error .wrongType

/-- `translate<T>`: conversion followed by the requirement.  Models: `ParameterGroup_impl.hpp:288-324`. -/
def translate {α : Type} (conv : Item → P α) (chk : α → Bool) (it : Item) : P α := do
  let v ← conv it
  if chk v then .ok v else .error .requirement

/-- Position of the first occurrence of `pat` in a string (`std::string::find`). -/
def findSub (pat : Name) : Name → Option Nat
  | [] => if pat = [] then some 0 else none
  | c :: l => if pat.isPrefixOf (c :: l) then some 0 else (findSub pat l).map (· + 1)

/-- One line of a parameter file, after the comment was cut: `none` if there are several `=`.
A line without `=` is taken as name and value at the same time.
Models: `ParameterGroup.cpp:127-139`. -/
def parseAssignment (l : Name) : Option (Name × Name) :=
  match findSub ['='] l with
  | none => some (l, l)
  | some fpos =>
    match findSub ['='] (l.drop (fpos + 1)) with
    | none => some (l.take fpos, l.drop (fpos + 1))
    | some _ => none

/-- One line of a parameter file: `none` if nothing is inserted.  Models: `ParameterGroup.cpp:122-140`. -/
def parseLine (l : Name) : Option (Name × Name) :=
  match findSub ['/', '/'] l with
  | none => parseAssignment l
  | some 0 => none
  | some (n + 1) => parseAssignment (l.take (n + 1))

/-- The lines returned by successive calls of `std::getline`; `cur` is the part of the current line read so far, reversed. -/
def getLines (cur : Name) : Name → List Name
  | [] => if cur = [] then [] else [cur.reverse]
  | c :: l => if c = '\n' then cur.reverse :: getLines [] l else getLines (c :: cur) l

/-- The loop of `readParam` over the lines of the file.  Models: `ParameterGroup.cpp:120-141`. -/
def readLines (fuel : Nat) (lines : List Name) (m : Map) : P Map :=
  lines.foldlM (fun m l =>
    match parseLine l with
    | none => .ok m
    | some nv => insertParameter fuel m nv.1 nv.2) m

/-- `readParam`, given the text of the file.  Models: `ParameterGroup.cpp:112-142`. -/
def readParam (fuel : Nat) (text : Name) (m : Map) : P Map := readLines fuel (getLines [] text) m

mutual
/-- `writeParamToStream` for a group with path `path`, as a list of lines.  Models: `ParameterGroup.cpp:154-172`. -/
def writeLines (path : Name) : Map → List Name
  | [] => [path ++ "/dummy=0".toList]
  | (k, it) :: m => writeItem path k it ++ writeItems path m

/-- The remaining iterations of the loop of `writeParamToStream`. -/
def writeItems (path : Name) : Map → List Name
  | [] => []
  | (k, it) :: m => writeItem path k it ++ writeItems path m

/-- One iteration of the loop of `writeParamToStream`.  Models: `ParameterGroup.cpp:161-170`. -/
def writeItem (path k : Name) : Item → List Name
  | .param v _ => [path ++ '/' :: k ++ '=' :: v]
  | .group g => writeLines (path ++ '/' :: k) g
end

/-- `writeParam` for a top-level group: the text of the file.  Models: `ParameterGroup.cpp:144-152`. -/
def writeParam (m : Map) : Name := (writeLines [] m).flatMap (fun l => l ++ ['\n'])

/-- Sorting of the command line arguments into files and assignments.  Models: `ParameterGroup_impl.hpp:126-147`. -/
def classify (args : List Name) : List Name × List (Name × Name) :=
  (args.filter (fun a => (findSub ['='] a).isNone),
   args.filterMap (fun a => if (findSub ['='] a).isNone then none else parseAssignment a))

/-- `parseCommandLineArguments`, given the effect `readFile` of reading a file into the group (the identity for files with an unknown
extension).  Models: `ParameterGroup_impl.hpp:123-163`. -/
def parseCommandLine (fuel : Nat) (readFile : Name → Map → P Map) (args : List Name) (m : Map) : P Map := do
  let m ← (classify args).1.foldlM (fun m f => readFile f m) m
  (classify args).2.foldlM (fun m nv => insertParameter fuel m nv.1 nv.2) m

end Opm.Param
