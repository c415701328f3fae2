import Verif.Text.Model
/-!
# The command line of the solver of the discretisation equation
-/

namespace Verif.Adapt
open Verif.Text

/-- `Sign` (`tools/adapt/load.hpp:20`). -/
inductive Sign
  | pos
  | neg
  deriving DecidableEq

/-- `CommandLineOptions` (`tools/adapt/adapt.cc:40-44`). -/
structure Options (K : Type) where
  sign : Sign
  paramFn : Str
  flat : Option K
  deriving DecidableEq

/-- `uppercase` (`tools/adapt/adapt.cc:46-49`), for ASCII. -/
def upper (c : Char) : Char := if 97 ≤ c.toNat ∧ c.toNat ≤ 122 then Char.ofNat (c.toNat - 32) else c

/-- `parse_sign_arg` (`tools/adapt/adapt.cc:51-62`). -/
def parseSign (arg : Str) : Option Sign :=
  let token := arg.map upper
  if token = "P".toList ∨ token = "POS".toList ∨ token = "POSITIVE".toList then some .pos
  else if token = "N".toList ∨ token = "NEG".toList ∨ token = "NEGATIVE".toList then some .neg
  else none

/-- How `cmd_line` ends. -/
inductive Cmd (K : Type)
  /-- the options are printed and the program exits with success -/
  | help
  /-- an exception: the program exits with failure -/
  | error
  | ok (o : Options K)
  deriving DecidableEq

/-- What `cmd_line` has found so far; `sign_set` and `param_set` are the presence of a value. -/
structure Seen (K : Type) where
  sign : Option Sign := none
  file : Option Str := none
  flat : Option K := none

def dashFlat : Str := "--flat".toList
def dashFlatEq : Str := "--flat=".toList
def dashHelp : Str := "--help".toList
def dashH : Str := "-h".toList

/-- `cmd_line` (`tools/adapt/adapt.cc:78-117`). `num` is `parse_flat_gamma` (64-76): the value of a string that is, as a whole, a positive finite
number; otherwise an exception. -/
def cmdLoop {K : Type} (num : Str → Option K) : List Str → Seen K → Cmd K
  | [], s => .ok ⟨s.sign.getD .pos, s.file.getD "param".toList, s.flat⟩
  | arg :: rest, s =>
    if arg = dashH ∨ arg = dashHelp then .help
    else if arg = dashFlat then
      if s.flat.isSome then .error
      else
        match rest with
        | [] => .error
        | v :: rest =>
          match num v with
          | none => .error
          | some g => cmdLoop num rest { s with flat := some g }
    else if dashFlatEq.isPrefixOf arg then
      if s.flat.isSome then .error
      else
        match num (arg.drop 7) with
        | none => .error
        | some g => cmdLoop num rest { s with flat := some g }
    else if arg.head? = some '-' then .error
    else
      match parseSign arg with
      | some sg => if s.sign.isSome then .error else cmdLoop num rest { s with sign := some sg }
      | none => if s.file.isSome then .error else cmdLoop num rest { s with file := some arg }

/-- `cmd_line` from the beginning. -/
def cmdLine {K : Type} (num : Str → Option K) (args : List Str) : Cmd K := cmdLoop num args {}

end Verif.Adapt
