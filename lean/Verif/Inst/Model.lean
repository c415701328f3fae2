import Verif.Text.Model
import Mathlib.Algebra.Field.Basic
import Mathlib.Algebra.Field.Rat
/-!
# Evaluation of matrix templates (`tools/instantiate/matrix_evaluator.hpp`)

Numbers are elements of a field `K`: overflow to infinity and NaN are not modelled.  The
position is the list of characters still to be read; line and column numbers in error
messages are not modelled.  The recursive functions carry fuel; running out of it is a
separate outcome, which `never_out_of_fuel` shows not to occur.
-/

namespace Verif.Inst
open Verif.Text

/-- What can go wrong. -/
inductive Err where
  | fuel | expected | identifier | number | divZero | unknownVariable | unsupported | parseDirective
  | channel | index | integral | trailing | scalarExpected | mixed | ragged | shell
deriving DecidableEq

/-- A result together with the rest of the input. -/
abbrev Res (α : Type) := Except Err (α × Str)

/-- `isalpha` in the C locale. -/
def isAlpha (c : Char) : Bool := (65 ≤ c.toNat && c.toNat ≤ 90) || (97 ≤ c.toNat && c.toNat ≤ 122)

/-- Skipping a comment up to the end of the line, `matrix_evaluator.hpp:69`. -/
def skipComment (s : Str) : Str := s.dropWhile (· != '\n')

/-- `skip_ignored`, `matrix_evaluator.hpp:65-71`: white space and `#` comments.  The fuel is
the number of turns of the outer loop. -/
def skipFuel : Nat → Str → Str
  | 0, s => s
  | n + 1, s =>
    let s := s.dropWhile isSpace
    match s with
    | [] => []
    | c :: _ => if c = '#' then skipFuel n (skipComment s) else s

@[inherit_doc skipFuel] def skip (s : Str) : Str := skipFuel (s.length + 1) s

/-- `consume`, `matrix_evaluator.hpp:73-78`: `none` when the next character is different (the
ignored text is skipped in any case). -/
def consume (c : Char) (s : Str) : Option Str :=
  match skip s with
  | [] => none
  | d :: t => if d = c then some t else none

/-- `starts_identifier`, `matrix_evaluator.hpp:84-87`. -/
def startsIdent : Str → Bool
  | [] => false
  | c :: _ => isAlpha c || c == '_'

/-- `isalnum` or an underscore, `matrix_evaluator.hpp:95`. -/
def identChar (c : Char) : Bool := isAlpha c || isDigit c || c == '_'

/-- What the evaluator is given: the variables, the Wilson-chain data per channel, and the
library functions. -/
structure Env (K : Type) where
  vars : List (Str × K)
  /-- per channel: `theta`, `xi`, `zeta` -/
  channels : List (K × List K × List K)
  /-- `strtod`: the number at the start of the text and the rest, `none` when there is none -/
  strtod : Str → Option (K × Str)
  pi : K
  sqrt : K → K
  exp : K → K
  log : K → K
  /-- `std::round` -/
  round : K → Int
  /-- `abs(value - rounded) > 1e-12` -/
  notIntegral : K → Bool

variable {K : Type} [Field K] [DecidableEq K]

/-- `lookup_variable`, `matrix_evaluator.hpp:112-117`. -/
def Env.lookup (E : Env K) (name : Str) : Except Err K :=
  if name = "Pi".toList ∨ name = "pi".toList then .ok E.pi
  else match E.vars.lookup name with
    | none => .error .unknownVariable
    | some v => .ok v

/-- `integral_argument`, `matrix_evaluator.hpp:131-136`. -/
def Env.integral (E : Env K) (v : K) : Except Err Int := if E.notIntegral v then .error .integral else .ok (E.round v)

/-- `channel`, `matrix_evaluator.hpp:119-123`. -/
def Env.channel (E : Env K) (ch : Int) : Except Err (K × List K × List K) :=
  if ch < 1 ∨ (E.channels.length : Int) < ch then .error .channel
  else match E.channels[(ch - 1).toNat]? with
    | some c => .ok c
    | none => .error .channel

/-- `coefficient`, `matrix_evaluator.hpp:125-129`. -/
def coefficient (values : List K) (i : Int) : Except Err K :=
  if i < 0 then .error .index
  else match values[i.toNat]? with
    | some v => .ok v
    | none => .error .index

/-- `call_function`, `matrix_evaluator.hpp:138-158`. -/
def Env.call (E : Env K) (name : Str) (args : List K) : Except Err K :=
  if (name = "Sqrt".toList ∨ name = "sqrt".toList) ∧ args.length = 1 then .ok (E.sqrt (args.getD 0 0))
  else if name = "exp".toList ∧ args.length = 1 then .ok (E.exp (args.getD 0 0))
  else if name = "log".toList ∧ args.length = 1 then .ok (E.log (args.getD 0 0))
  else if name = "Conjugate".toList ∧ args.length = 1 then .ok (args.getD 0 0)
  else if name = "gammaPolCh".toList ∧ args.length = 1 then do
    let ch ← E.integral (args.getD 0 0)
    let c ← E.channel ch
    pure (E.sqrt (c.1 / E.pi))
  else if name = "coefxi".toList ∧ args.length = 2 then do
    let ch ← E.integral (args.getD 0 0)
    let i ← E.integral (args.getD 1 0)
    let c ← E.channel ch
    coefficient c.2.1 i
  else if name = "coefzeta".toList ∧ args.length = 2 then do
    let ch ← E.integral (args.getD 0 0)
    let i ← E.integral (args.getD 1 0)
    let c ← E.channel ch
    coefficient c.2.2 i
  else .error .unsupported

/-- `parse_number`, `matrix_evaluator.hpp:101-110`. -/
def Env.number (E : Env K) (s : Str) : Res K :=
  match E.strtod (skip s) with
  | some r => .ok r
  | none => .error .number

/-- `parse_identifier`, `matrix_evaluator.hpp:89-99`, at a letter. -/
def identifier (s : Str) : Str × Str := (s.takeWhile identChar, s.dropWhile identChar)

mutual
/-- `parse_expression`, `matrix_evaluator.hpp:210-221`. -/
def pExpr (E : Env K) : Nat → Str → Res K
  | 0, _ => .error .fuel
  | n + 1, s =>
    match pProduct E n s with
    | .error e => .error e
    | .ok (v, s) => pExprLoop E n v s
/-- The loop of `parse_expression`, `matrix_evaluator.hpp:212-220`. -/
def pExprLoop (E : Env K) : Nat → K → Str → Res K
  | 0, _, _ => .error .fuel
  | n + 1, v, s =>
    match consume '+' s with
    | some s =>
      match pProduct E n s with
      | .error e => .error e
      | .ok (w, s) => pExprLoop E n (v + w) s
    | none =>
      match consume '-' s with
      | some s =>
        match pProduct E n s with
        | .error e => .error e
        | .ok (w, s) => pExprLoop E n (v - w) s
      | none => .ok (v, skip s)
/-- `parse_product`, `matrix_evaluator.hpp:195-208`. -/
def pProduct (E : Env K) : Nat → Str → Res K
  | 0, _ => .error .fuel
  | n + 1, s =>
    match pUnary E n s with
    | .error e => .error e
    | .ok (v, s) => pProductLoop E n v s
/-- The loop of `parse_product`, `matrix_evaluator.hpp:197-207`. -/
def pProductLoop (E : Env K) : Nat → K → Str → Res K
  | 0, _, _ => .error .fuel
  | n + 1, v, s =>
    match consume '*' s with
    | some s =>
      match pUnary E n s with
      | .error e => .error e
      | .ok (w, s) => pProductLoop E n (v * w) s
    | none =>
      match consume '/' s with
      | some s =>
        match pUnary E n s with
        | .error e => .error e
        | .ok (w, s) => if w = 0 then .error .divZero else pProductLoop E n (v / w) s
      | none => .ok (v, skip s)
/-- `parse_unary`, `matrix_evaluator.hpp:188-193`. -/
def pUnary (E : Env K) : Nat → Str → Res K
  | 0, _ => .error .fuel
  | n + 1, s =>
    match consume '+' s with
    | some s => pUnary E n s
    | none =>
      match consume '-' s with
      | some s =>
        match pUnary E n s with
        | .error e => .error e
        | .ok (v, s) => .ok (-v, s)
      | none => pPrimary E n s
/-- `parse_primary`, `matrix_evaluator.hpp:171-186`. -/
def pPrimary (E : Env K) : Nat → Str → Res K
  | 0, _ => .error .fuel
  | n + 1, s =>
    match consume '(' s with
    | some s =>
      match pExpr E n s with
      | .error e => .error e
      | .ok (v, s) =>
        match consume ')' s with
        | some s => .ok (v, s)
        | none => .error .expected
    | none =>
      if startsIdent (skip s) then
        match consume '(' (identifier (skip s)).2 with
        | some t =>
          match pArgs E n ')' t with
          | .error e => .error e
          | .ok (args, t) =>
            match E.call (identifier (skip s)).1 args with
            | .error e => .error e
            | .ok v => .ok (v, t)
        | none =>
          match consume '[' (identifier (skip s)).2 with
          | some t =>
            match pArgs E n ']' t with
            | .error e => .error e
            | .ok (args, t) =>
              match E.call (identifier (skip s)).1 args with
              | .error e => .error e
              | .ok v => .ok (v, t)
          | none =>
            if (identifier (skip s)).1 = "parse".toList then .error .parseDirective
            else match E.lookup (identifier (skip s)).1 with
              | .error e => .error e
              | .ok v => .ok (v, skip (identifier (skip s)).2)
      else E.number s
/-- `parse_arguments`, `matrix_evaluator.hpp:160-169`. -/
def pArgs (E : Env K) : Nat → Char → Str → Res (List K)
  | 0, _, _ => .error .fuel
  | n + 1, closing, s =>
    match consume closing s with
    | some s => .ok ([], s)
    | none => pArgsLoop E n closing [] s
/-- The loop of `parse_arguments`, `matrix_evaluator.hpp:164-168`. -/
def pArgsLoop (E : Env K) : Nat → Char → List K → Str → Res (List K)
  | 0, _, _, _ => .error .fuel
  | n + 1, closing, acc, s =>
    match pExpr E n s with
    | .error e => .error e
    | .ok (v, s) =>
      match consume closing s with
      | some s => .ok (acc ++ [v], s)
      | none =>
        match consume ',' s with
        | some s => pArgsLoop E n closing (acc ++ [v]) s
        | none => .error .expected
end

/-- `MatrixEvaluator::Value`, `matrix_evaluator.hpp:30-37`. -/
inductive Value (K : Type) where
  | scalar (number : K)
  | list (items : List (Value K))

mutual
/-- `parse_value`, `matrix_evaluator.hpp:223-235`. -/
def pValue (E : Env K) : Nat → Str → Res (Value K)
  | 0, _ => .error .fuel
  | n + 1, s =>
    match consume '{' s with
    | none =>
      match pExpr E n s with
      | .error e => .error e
      | .ok (v, s) => .ok (.scalar v, s)
    | some s =>
      match consume '}' s with
      | some s => .ok (.list [], s)
      | none => pItems E n [] s
/-- The loop of `parse_value`, `matrix_evaluator.hpp:230-234`. -/
def pItems (E : Env K) : Nat → List (Value K) → Str → Res (Value K)
  | 0, _, _ => .error .fuel
  | n + 1, acc, s =>
    match pValue E n s with
    | .error e => .error e
    | .ok (v, s) =>
      match consume '}' s with
      | some s => .ok (.list (acc ++ [v]), s)
      | none =>
        match consume ',' s with
        | some s => pItems E n (acc ++ [v]) s
        | none => .error .expected
end

/-- `value.scalar`. -/
def Value.isScalar : Value K → Bool
  | .scalar _ => true
  | .list _ => false

/-- `scalar`, `matrix_evaluator.hpp:237-240`. -/
def Value.toScalar : Value K → Except Err K
  | .scalar v => .ok v
  | .list _ => .error .scalarExpected

/-- `value.items`. -/
def Value.items : Value K → List (Value K)
  | .scalar _ => []
  | .list l => l

/-- A matrix: numbers of rows and columns, and the entries by rows. -/
structure Matrix (K : Type) where
  rows : Nat
  cols : Nat
  entries : List (List K)
deriving DecidableEq

/-- One row of `to_matrix`, `matrix_evaluator.hpp:259-262`. -/
def rowOf (cols : Nat) (v : Value K) : Except Err (List K) :=
  if v.isScalar then .error .mixed
  else if v.items.length ≠ cols then .error .ragged
  else v.items.mapM Value.toScalar

/-- `to_matrix`, `matrix_evaluator.hpp:242-265`. -/
def toMatrix : Value K → Except Err (Matrix K)
  | .scalar v => .ok ⟨1, 1, [[v]]⟩
  | .list [] => .ok ⟨0, 0, []⟩
  | .list (v :: l) =>
    if v.isScalar then do
      let row ← (v :: l).mapM Value.toScalar
      pure ⟨1, (v :: l).length, [row]⟩
    else do
      let rows ← (v :: l).mapM (rowOf v.items.length)
      pure ⟨(v :: l).length, v.items.length, rows⟩

/-- The blanks of `find_first_not_of(" \t\r")`, `matrix_evaluator.hpp:273`. -/
def isBlank (c : Char) : Bool := c == ' ' || c == '\t' || c == '\r'

/-- `reject_shell_escapes`, `matrix_evaluator.hpp:267-280`: whether the text has a line whose
first non-blank character is an exclamation mark. -/
def hasEscape (text : Str) : Bool :=
  (text.splitOn '\n').any fun line => (line.dropWhile isBlank).head? == some '!'

/-- Enough fuel for a text. -/
def fuelFor (s : Str) : Nat := 8 * s.length + 16

/-- `evaluate_matrix`, `matrix_evaluator.hpp:285-296`. -/
def evaluateMatrix (E : Env K) (text : Str) : Except Err (Matrix K) :=
  if hasEscape text then .error .shell
  else match pValue E (fuelFor text) text with
    | .error e => .error e
    | .ok (v, rest) => if skip rest = [] then toMatrix v else .error .trailing

end Verif.Inst
