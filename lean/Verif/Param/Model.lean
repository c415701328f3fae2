import Verif.Text.Model
/-!
# Parameter files
-/

namespace Verif.Param
open Verif.Text

/-- Lines of a file as `std::getline` delivers them: pieces between line breaks;
what follows the last line break is a line only if it is not empty. -/
def lines (file : Str) : List Str := split '\n' file

/-- `nextline` (`c++/misc.hpp:81-90`): the next line that is neither blank nor a
comment, and what follows it. -/
def nextline : List Str → Option (Str × List Str)
  | [] => none
  | l :: ls => if blankOrComment l then nextline ls else some (l, ls)

/-- `std::string::find_first_of('=')` and the two `substr`s
(`c++/misc.hpp:100-104`): text before and after the first `=`. -/
def splitEq : Str → Option (Str × Str)
  | [] => none
  | c :: s => if c = '=' then some ([], s) else (splitEq s).map fun p => (c :: p.1, p.2)

/-- A `std::map<std::string, std::string>`, as the list of its entries in the
order of insertion. (Iteration is by key; it is used only for printing.) -/
abbrev Map := List (Str × Str)

def Map.get (m : Map) (k : Str) : Option Str := (m.find? fun e => e.1 = k).map (·.2)

/-- Outcome: result or thrown exception. -/
inductive Res (α : Type) where
  | ok (a : α)
  /-- `Duplicate keyword` (`c++/misc.hpp:106`) -/
  | duplicate (k : Str)
  /-- `Block … not found` (`c++/misc.hpp:129`) -/
  | notFound
  /-- `Lexical cast … failed` (`c++/basicio.hpp:52,63`) -/
  | badValue (k : Str)
  deriving DecidableEq

/-- `parse_block` (`c++/misc.hpp:93-111`) on the remaining lines, with the
entries found so far. The call of `nextline` is merged into the loop. -/
def parseBlock : List Str → Map → Res Map
  | [], m => .ok m
  | l :: ls, m =>
    if blankOrComment l then parseBlock ls m
    else if (strip l).head? = some '[' then .ok m
    else match splitEq (strip l) with
      | none => parseBlock ls m
      | some (a, b) =>
        if (Map.get m (strip a)).isSome then .duplicate (strip a)
        else parseBlock ls (m ++ [(strip a, strip b)])

/-- `find_block` (`c++/misc.hpp:114-123`): the lines after the header. -/
def findBlock (name : Str) : List Str → Option (List Str)
  | [] => none
  | l :: ls =>
    if blankOrComment l then findBlock name ls
    else if strip l = '[' :: name ++ [']'] then some ls
    else findBlock name ls

/-- `parser` (`c++/misc.hpp:126-131`). -/
def parser (file name : Str) : Res Map :=
  match findBlock name (lines file) with
  | none => .notFound
  | some ls => parseBlock ls []

/-! ## Values -/

/-- `std::tolower` on ASCII, as `strcasecmp` compares. -/
def lower (c : Char) : Char := if 65 ≤ c.toNat ∧ c.toNat ≤ 90 then Char.ofNat (c.toNat + 32) else c

/-- `from_string<bool>` (`c++/basicio.hpp:56-64`). Characters after a zero byte,
which `strcasecmp` would ignore, are not considered. -/
def boolOf (s : Str) : Option Bool :=
  let t := strip s
  if t = ['1'] then some true
  else if t = ['0'] then some false
  else if t.map lower = "true".toList ∨ t.map lower = "yes".toList then some true
  else if t.map lower = "false".toList ∨ t.map lower = "no".toList then some false
  else none

/-- A declared parameter: keyword, parser of its type (`from_string<T>`; values
of all types in one type `V`), default value. -/
structure Decl (V : Type) where
  keyword : Str
  parse : Str → Option V
  default : V

/-- The loop of the constructor `Params::Params` over all declared parameters
(`c++/params.hpp:674-681`): returns the values and the settings that remain
(reported as "Unused settings", 682-687). -/
def applyAll {V : Type} : List (Decl V) → Map → Res (List (Str × V) × Map)
  | [], m => .ok ([], m)
  | d :: ds, m =>
    match Map.get m d.keyword with
    | none =>
      match applyAll ds m with
      | .ok (vs, r) => .ok ((d.keyword, d.default) :: vs, r)
      | e => e
    | some s =>
      match d.parse s with
      | none => .badValue d.keyword
      | some v =>
        match applyAll ds (m.filter fun e => e.1 ≠ d.keyword) with
        | .ok (vs, r) => .ok ((d.keyword, v) :: vs, r)
        | e => e

end Verif.Param
