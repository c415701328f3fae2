import Verif.Param.Model
/-!
# Parameter files in the tools
-/

namespace Verif.Param
open Verif.Text

/-- `find_block` (`tools/common/parser.hpp:16-26`): the lines after the first line that is exactly the header. -/
def toolFind (name : Str) : List Str → Option (List Str)
  | [] => none
  | l :: ls => if l = '[' :: name ++ [']'] then some ls else toolFind name ls

/-- `insert_or_assign` of a map. -/
def Map.assign : Map → Str → Str → Map
  | [], k, v => [(k, v)]
  | e :: m, k, v => if e.1 = k then (k, v) :: m else e :: Map.assign m k v

/-- `parse_key_value_block` (`tools/common/parser.hpp:28-44`). `trim_whitespace` (9-14) removes the same characters at both ends as
`strip_whitespace`. -/
def toolParse : List Str → Map → Map
  | [], m => m
  | l :: ls, m =>
    match strip l with
    | [] => toolParse ls m
    | c :: r =>
      if c = '[' then m
      else if c = '#' then toolParse ls m
      else
        match splitEq (c :: r) with
        | none => toolParse ls m
        | some (a, b) => toolParse ls (m.assign (strip a) (strip b))

/-- The constructor `Params` of `adapt` (`tools/adapt/parser.hpp:20-24`) and `parser` of `nrgchain` (`tools/nrgchain/parser.h:30-35`): without the
block the map stays empty. -/
def toolParams (file name : Str) : Map :=
  match toolFind name (lines file) with
  | none => []
  | some ls => toolParse ls []

/-- `Pbool` (`tools/adapt/parser.hpp:35-37`). -/
def toolBool (m : Map) (k : Str) (default : Bool) : Bool :=
  match m.get k with
  | some v => v = "true".toList
  | none => default

end Verif.Param
