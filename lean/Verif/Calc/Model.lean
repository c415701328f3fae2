import Verif.Table.Model
import Mathlib.Algebra.Field.Basic
import Mathlib.Data.List.Dedup
/-!
# The matrix calculator (`tools/matrix`)

The scanner by the rules of `tools/matrix/matrix.ll` (longest match, the first of several rules), the parser by the tables and the loop that Bison has written to
`tools/matrix/parser.cc` (this file is compiled, `tools/CMakeLists.txt:53`), and the actions of `tools/matrix/parser.yy`.

Numbers are elements of a field; `sqrt`, `exp`, `log` and the value of decimal numbers are parameters. The tokens are computed before the parser begins; in the program
the parser asks for them one by one. This makes no difference where the scanner succeeds, because it does not
look at the values of variables; where it fails, what the parser has printed before is not part of the outcome.

Not modelled: `parse file` and `!command` in the input (an outcome of their own), several input files, formatting of the numbers, verbose output, memory management.
-/

namespace Verif.Calc
open Verif.Text (Str isDigit natValue)
open Verif.DataFile (Dec)

/-! ## Scanner -/

/-- Tokens (`tools/matrix/parser.hh`, `tools/matrix/matrix.ll`). -/
inductive Tok
  | name (s : Str)
  | num (d : Dec)
  | int (n : Nat)
  | gamma | zeta | xi | delta | kappa | v
  | ch (c : Char)
  deriving DecidableEq

/-- `[A-Za-z]`. -/
def letter (c : Char) : Bool := (65 ≤ c.toNat && c.toNat ≤ 90) || (97 ≤ c.toNat && c.toNat ≤ 122)

/-- `[_A-Za-z0-9]`. -/
def nameChar (c : Char) : Bool := letter c || isDigit c || c == '_'

/-- Length of `[A-Za-z][_A-Za-z0-9]*` at the beginning (`ALPHANAME`, `matrix.ll:28`); zero if there is none. -/
def nameLen : Str → Nat
  | c :: s => if letter c then 1 + (s.takeWhile nameChar).length else 0
  | [] => 0

/-- Number of digits at the beginning. -/
def digits (s : Str) : Nat := (s.takeWhile isDigit).length

/-- Length of `[-+]?[0-9]+`; zero if there is none. -/
def signedLen : Str → Nat
  | c :: s => if c = '-' ∨ c = '+' then (if digits s = 0 then 0 else 1 + digits s) else digits (c :: s)
  | [] => 0

/-- Length of `[1-9]e[-+]?[0-9]+` (`matrix.ll:61`). -/
def shortLen : Str → Nat
  | c :: d :: s => if isDigit c ∧ c ≠ '0' ∧ d = 'e' ∧ signedLen s ≠ 0 then 2 + signedLen s else 0
  | _ => 0

/-- Length of `[0-9]*\.[0-9]*` with an optional `[eE][-+]?[0-9]+`, or zero (`matrix.ll:66`). -/
def pointLen (s : Str) : Nat :=
  match s.drop (digits s) with
  | '.' :: t =>
    let n := digits s + 1 + digits t
    match t.drop (digits t) with
    | c :: u => if (c = 'e' ∨ c = 'E') ∧ signedLen u ≠ 0 then n + 1 + signedLen u else n
    | [] => n
  | _ => 0

/-- Length of a section header `[name]` (`matrix.ll:74`). -/
def sectionLen : Str → Nat
  | c :: s =>
    if c = '[' ∧ nameLen s ≠ 0 then
      match s.drop (nameLen s) with
      | d :: _ => if d = ']' then nameLen s + 2 else 0
      | [] => 0
    else 0
  | [] => 0

/-- Length of `name=text`, where the text begins with a letter and extends to the end of the line (`matrix.ll:76`). -/
def textLen (s : Str) : Nat :=
  if nameLen s = 0 then 0
  else
    match s.drop (nameLen s) with
    | e :: c :: t => if e = '=' ∧ letter c then nameLen s + 2 + (t.takeWhile (· != '\n')).length else 0
    | _ => 0

/-- Length of a fixed word. -/
def wordLen (w : String) (s : Str) : Nat := if w.toList.isPrefixOf s then w.length else 0

/-- The rules. -/
inductive Rule
  | comment | gamma | xi | zeta | delta | kappa | v | parse | system | integer | short | decimal | blank | section_ | text | name | stop | opening | closing | newline | other
  deriving DecidableEq

/-- The length of the text that matches each rule, in the order of the rules (`matrix.ll:32-130`); `bol` tells whether this is the beginning of a line. -/
def matches_ (bol : Bool) (s : Str) : List (Nat × Rule) :=
  let c := s.headD ' '
  [ (if bol && c == '#' then (s.takeWhile (· != '\n')).length else 0, .comment),
    (wordLen "gammaPolCh" s, .gamma), (wordLen "coefxi" s, .xi), (wordLen "coefzeta" s, .zeta), (wordLen "coefdelta" s, .delta), (wordLen "coefkappa" s, .kappa),
    (wordLen "coefV" s, .v), (wordLen "parse" s, .parse),
    (if bol && c == '!' then 1 else 0, .system),
    (digits s, .integer), (shortLen s, .short), (max (digits s) (pointLen s), .decimal),
    (if c = ' ' ∨ c = '\t' then 1 else 0, .blank),
    (sectionLen s, .section_), (textLen s, .text), (nameLen s, .name),
    (if c = '$' then 1 else 0, .stop), (if c = '{' then 1 else 0, .opening), (if c = '}' then 1 else 0, .closing), (if c = '\n' then 1 else 0, .newline),
    (if c = '\n' then 0 else 1, .other)]

/-- The longer match, and the first of equally long ones. -/
def better (x y : Nat × Rule) : Nat × Rule := if y.1 ≤ x.1 then x else y

/-- The longest match, and the first of equally long ones. -/
def longest : List (Nat × Rule) → Nat × Rule
  | [] => (0, .other)
  | x :: l => better x (longest l)

/-- The text and the rule found by the scanner. -/
@[irreducible] def found (bol : Bool) (s : Str) : Nat × Rule := longest (matches_ bol s)

/-- What stops the scanner: a closing brace without an opening one (`exit(1)`, `matrix.ll:115-121`), an integer too large for `atoi` (undefined behaviour), or one of the
directives that are not modelled. -/
inductive LexErr
  | brace | range | parse | system
  deriving DecidableEq

/-- What a rule does with the text `w`: the tokens, whether a line begins, the number of open braces; nothing at the end (`matrix.ll:32-130`). Newlines within braces are
dropped (`matrix.ll:123-129`). -/
def move (br : Nat) (w : Str) : Rule → Except LexErr (Option (List Tok × Bool × Nat))
  | .comment | .blank | .section_ | .text => .ok (some ([], false, br))
  | .gamma => .ok (some ([.gamma], false, br))
  | .xi => .ok (some ([.xi], false, br))
  | .zeta => .ok (some ([.zeta], false, br))
  | .delta => .ok (some ([.delta], false, br))
  | .kappa => .ok (some ([.kappa], false, br))
  | .v => .ok (some ([.v], false, br))
  | .parse => .error .parse
  | .system => .error .system
  | .integer => if natValue w < 2 ^ 31 then .ok (some ([.int (natValue w)], false, br)) else .error .range
  | .short | .decimal => .ok (some ([.num (Verif.Table.atof w)], false, br))
  | .name => .ok (some ([.name w], false, br))
  | .stop => .ok none
  | .opening => .ok (some ([.ch '{'], false, br + 1))
  | .closing => if br = 0 then .error .brace else .ok (some ([.ch '}'], false, br - 1))
  | .newline => if 0 < br then .ok (some ([], true, br)) else .ok (some ([.ch '\n'], true, br))
  | .other => .ok (some ([.ch (w.headD ' ')], false, br))

/-- The scanner. The first argument bounds the number of tokens. -/
def lexLoop : Nat → Bool → Nat → Str → Except LexErr (List Tok)
  | 0, _, _, _ => .ok []
  | k + 1, bol, br, s =>
    if s = [] then .ok []
    else
      match move br (s.take (found bol s).1) (found bol s).2 with
      | .error e => .error e
      | .ok none => .ok []
      | .ok (some (ts, bol', br')) => (lexLoop k bol' br' (s.drop (found bol s).1)).map (ts ++ ·)

/-- All tokens of a text. -/
def lex (s : Str) : Except LexErr (List Tok) := lexLoop (s.length + 1) true 0 s

/-! ## Tables of the parser -/

/-- Index in `yytable` of the part for a state (`tools/matrix/parser.cc:538-549`). -/
def yypact : List Int := [
  110, 15, -19, -19, 134, -19, -18, -11, -10, 17, 32, 33, 134, 45, 16, 20, 92, -19, -19, 134, 134, 134, -17, -19, 53, 60, 61, 63, 65, 77,
  -6, 70, -19, 71, 56, 80, 64, -19, 82, -19, 134, 134, 134, 134, 92, 46, 3, 78, 100, 101, 108, 109, 111, -19, 93, 134, -19, 96, -19, -19,
  18, 18, -19, -19, -19, -19, -19, 125, 126, 128, 129, 130, -19, -19, 90, -19, 116, 117, 118, 119, 120, -19, -19, -19, -19, -19]

/-- Default reduction of a state; zero is an error (`tools/matrix/parser.cc:554-565`). -/
def yydefact : List Nat := [
  9, 18, 16, 17, 0, 8, 0, 0, 0, 0, 0, 0, 0, 0, 9, 0, 5, 6, 7, 0, 0, 0, 18, 14, 0, 0, 0, 0, 0, 0, 0, 0, 29, 27, 0, 31, 0, 1, 0, 2, 0, 0, 0,
  0, 4, 0, 0, 0, 0, 0, 0, 0, 0, 15, 29, 0, 30, 0, 34, 3, 11, 10, 12, 13, 19, 20, 21, 0, 0, 0, 0, 0, 33, 28, 0, 32, 0, 0, 0, 0, 0, 23, 22,
  24, 25, 26]

/-- Index in `yytable` of the part for a nonterminal (`tools/matrix/parser.cc:568-571`). -/
def yypgoto : List Int := [
  -19, -19, 133, 5, 103, -13, 91, -19]

/-- Default successor for a nonterminal (`tools/matrix/parser.cc:574-577`). -/
def yydefgoto : List Int := [
  -1, 14, 15, 33, 34, 17, 36, 18]

/-- What to do (`tools/matrix/parser.cc:582-600`). -/
def yytable : List Nat := [
  35, 40, 41, 42, 43, 16, 20, 24, 21, 23, 40, 41, 42, 43, 25, 26, 37, 30, 53, 16, 1, 2, 3, 4, 44, 45, 46, 42, 43, 65, 5, 6, 7, 8, 9, 10, 11,
  19, 20, 12, 21, 39, 27, 13, 35, 60, 61, 62, 63, 22, 2, 3, 4, 40, 41, 42, 43, 28, 29, 47, 6, 7, 8, 9, 10, 11, 48, 49, 12, 50, 64, 51, 31,
  32, 22, 2, 3, 4, 40, 41, 42, 43, 55, 52, 56, 6, 7, 8, 9, 10, 11, 57, 58, 12, 22, 2, 3, 4, 54, 40, 41, 42, 43, 59, 66, 6, 7, 8, 9, 10, 11,
  67, 68, 12, 1, 2, 3, 4, 32, 69, 70, 72, 71, 74, 5, 6, 7, 8, 9, 10, 11, 76, 77, 12, 78, 79, 80, 13, 22, 2, 3, 4, 81, 82, 83, 84, 85, 38,
  75, 6, 7, 8, 9, 10, 11, 0, 0, 12, 73]

/-- For which symbol or state an entry of `yytable` is valid (`tools/matrix/parser.cc:602-620`). -/
def yycheck : List Int := [
  13, 7, 8, 9, 10, 0, 23, 25, 25, 4, 7, 8, 9, 10, 25, 25, 0, 12, 24, 14, 4, 5, 6, 7, 19, 20, 21, 9, 10, 26, 14, 15, 16, 17, 18, 19, 20, 22,
  23, 23, 25, 21, 25, 27, 57, 40, 41, 42, 43, 4, 5, 6, 7, 7, 8, 9, 10, 25, 25, 6, 15, 16, 17, 18, 19, 20, 6, 6, 23, 6, 24, 6, 27, 28, 4, 5,
  6, 7, 7, 8, 9, 10, 11, 6, 28, 15, 16, 17, 18, 19, 20, 11, 28, 23, 4, 5, 6, 7, 28, 7, 8, 9, 10, 21, 26, 15, 16, 17, 18, 19, 20, 11, 11, 23,
  4, 5, 6, 7, 28, 11, 11, 28, 11, 27, 14, 15, 16, 17, 18, 19, 20, 6, 6, 23, 6, 6, 6, 27, 4, 5, 6, 7, 26, 26, 26, 26, 26, 14, 57, 15, 16, 17,
  18, 19, 20, -1, -1, 23, 55]

/-- The symbol by which a state is entered (`tools/matrix/parser.cc:624-635`). -/
def yystos : List Nat := [
  0, 4, 5, 6, 7, 14, 15, 16, 17, 18, 19, 20, 23, 27, 30, 31, 32, 34, 36, 22, 23, 25, 4, 32, 25, 25, 25, 25, 25, 25, 32, 27, 28, 32, 33, 34,
  35, 0, 31, 21, 7, 8, 9, 10, 32, 32, 32, 6, 6, 6, 6, 6, 6, 24, 28, 11, 28, 11, 28, 21, 32, 32, 32, 32, 24, 26, 26, 11, 11, 11, 11, 11, 28,
  33, 27, 35, 6, 6, 6, 6, 6, 26, 26, 26, 26, 26]

/-- The nonterminal of a rule (`tools/matrix/parser.cc:638-644`). -/
def yyr1 : List Nat := [
  0, 29, 30, 30, 31, 31, 31, 31, 31, 31, 32, 32, 32, 32, 32, 32, 32, 32, 32, 32, 32, 32, 32, 32, 32, 32, 32, 33, 33, 34, 34, 35, 35, 36, 36]

/-- The number of symbols on the right side of a rule (`tools/matrix/parser.cc:647-653`). -/
def yyr2 : List Nat := [
  0, 2, 2, 3, 3, 1, 1, 1, 1, 0, 3, 3, 3, 3, 2, 3, 1, 1, 1, 4, 4, 4, 6, 6, 6, 6, 6, 1, 3, 2, 3, 1, 3, 4, 3]

/-- Symbol numbers of characters (`yytranslate`, `tools/matrix/parser.cc:458-488`). -/
def charSym (c : Char) : Nat :=
  if c = '\n' then 21 else if c = '(' then 23 else if c = ')' then 24 else if c = '*' then 9 else if c = '+' then 8 else if c = ',' then 11
  else if c = '-' then 7 else if c = '/' then 10 else if c = '=' then 22 else if c = '[' then 25 else if c = ']' then 26
  else if c = '{' then 27 else if c = '}' then 28 else 2

/-- Symbol number of a token. -/
def Tok.sym : Tok → Nat
  | .name _ => 4
  | .num _ => 5
  | .int _ => 6
  | .gamma => 15
  | .zeta => 16
  | .xi => 17
  | .delta => 18
  | .kappa => 19
  | .v => 20
  | .ch c => charSym c

/-- What to do next. -/
inductive Act
  | shift (t : Nat)
  | reduce (n : Nat)
  | error
  deriving DecidableEq

/-- `yydefault` (`parser.cc:1300-1304`). -/
def defAct (s : Nat) : Act := if yydefact.getD s 0 = 0 then .error else .reduce (yydefact.getD s 0)

/-- `yybackup` (`parser.cc:1234-1297`). -/
def act (s tok : Nat) : Act :=
  let p := yypact.getD s (-19)
  if p = -19 then defAct s
  else if p + tok < 0 ∨ 158 < p + tok ∨ yycheck.getD (p + tok).toNat (-1) ≠ tok then defAct s
  else
    match yytable.getD (p + tok).toNat 0 with
    | 0 => .reduce 0
    | t + 1 => .shift (t + 1)

/-- The state after a reduction to the nonterminal of rule `n` in state `s` (`parser.cc:1567-1581`). -/
def goto_ (s n : Nat) : Nat :=
  let k := yyr1.getD n 0 - 29
  let i := yypgoto.getD k (-19) + s
  if 0 ≤ i ∧ i ≤ 158 ∧ yycheck.getD i.toNat (-1) = s then yytable.getD i.toNat 0 else (yydefgoto.getD k (-1)).toNat

/-! ## Values and actions -/

/-- The union of semantic values (`parser.yy:55-62`), with its selector. -/
inductive Val (K : Type)
  | none
  | num (x : K)
  | int (n : Nat)
  | sym (s : Str)
  | vec (l : List K)
  | mat (m : List (List K))

/-- What is written: results to standard output, messages to standard error. -/
inductive Ev (K : Type)
  | num (x : K)
  | vec (l : List K)
  | mat (m : List (List K))
  | divZero
  | notFunction (s : Str)
  deriving DecidableEq

/-- What does not change: the functions, and the coefficients of the Wilson chain for each channel (`parser.yy:248-253`). -/
structure Env (K : Type) where
  val : Dec → K
  pi : K
  sqrt : K → K
  exp : K → K
  log : K → K
  theta : List K
  xi : List (List K)
  zeta : List (List K)
  delta : List (List K)
  kappa : List (List K)
  v : List (List K)

/-- How the parser ends (`parser.cc:1721-1750`); `assert_` is a failed assertion in a coefficient, `bad` a value of the wrong kind or an empty stack, which would be
undefined behaviour. -/
inductive Fin
  | accept | syntax_ | exhausted | assert_ | exit | bad
  deriving DecidableEq

variable {K : Type} [Field K] [DecidableEq K]

/-- The functions (`parser.yy:391-394`). -/
def Env.fn (E : Env K) (s : Str) : Option (K → K) :=
  if s = "Sqrt".toList ∨ s = "sqrt".toList then some E.sqrt else if s = "exp".toList then some E.exp else if s = "log".toList then some E.log else none

/-- `coefzeta` and the like (`parser.yy:499-526`): the channel counts from one, the index from zero. -/
def coef (t : List (List K)) (ch i : Nat) : Option K := if 1 ≤ ch then (t[ch - 1]?).bind (·[i]?) else none

/-- `coefV` (`parser.yy:528-536`): both indices count from one. -/
def coefV (t : List (List K)) (i j : Nat) : Option K := if 1 ≤ i ∧ 1 ≤ j then (t[i - 1]?).bind (·[j - 1]?) else none

/-- `gammapolch` (`parser.yy:492-497`). -/
def Env.gamma (E : Env K) (ch : Nat) : Option K := if 1 ≤ ch then (E.theta[ch - 1]?).map fun t => E.sqrt (t / E.pi) else none

/-- Result of an action: the value, the variables, what is written. -/
abbrev Done (K : Type) := Except Fin (Val K × (Str → K) × List (Ev K))

/-- An application of a function (`parser.yy:115-130`). -/
def apply (E : Env K) (vars : Str → K) (s : Str) (x : K) : Done K :=
  match E.fn s with
  | some f => .ok (.num (f x), vars, [])
  | none => .ok (.num 0, vars, [.notFunction s])

/-- A coefficient, or a failed assertion. -/
def ofCoef (vars : Str → K) : Option K → Done K
  | some x => .ok (.num x, vars, [])
  | none => .error .assert_

/-- The actions (`parser.cc:1326-1545`, `parser.yy:81-173`). The values are those of the right side, the last one first. -/
def action (E : Env K) (vars : Str → K) (n : Nat) (vs : List (Val K)) : Done K :=
  match n, vs with
  | 2, [_, _] => .ok (.none, vars, [])
  | 3, [_, _, _] => .ok (.none, vars, [])
  | 4, [.num x, _, .sym s] => .ok (.none, fun t => if t = s then x else vars t, [])
  | 5, [.num x] => .ok (.none, vars, [.num x])
  | 6, [.vec l] => .ok (.none, vars, [.vec l])
  | 7, [.mat m] => .ok (.none, vars, [.mat m])
  | 8, [_] => .error .exit
  | 9, [] => .ok (.none, vars, [])
  | 10, [.num y, _, .num x] => .ok (.num (x + y), vars, [])
  | 11, [.num y, _, .num x] => .ok (.num (x - y), vars, [])
  | 12, [.num y, _, .num x] => .ok (.num (x * y), vars, [])
  | 13, [.num y, _, .num x] => if y = 0 then .ok (.num x, vars, [.divZero]) else .ok (.num (x / y), vars, [])
  | 14, [.num x, _] => .ok (.num (-x), vars, [])
  | 15, [_, .num x, _] => .ok (.num x, vars, [])
  | 16, [.num x] => .ok (.num x, vars, [])
  | 17, [.int k] => .ok (.num (k : K), vars, [])
  | 18, [.sym s] => .ok (.num (vars s), vars, [])
  | 19, [_, .num x, _, .sym s] => apply E vars s x
  | 20, [_, .num x, _, .sym s] => apply E vars s x
  | 21, [_, .int i, _, _] => ofCoef vars (E.gamma i)
  | 22, [_, .int j, _, .int i, _, _] => ofCoef vars (coef E.xi i j)
  | 23, [_, .int j, _, .int i, _, _] => ofCoef vars (coef E.zeta i j)
  | 24, [_, .int j, _, .int i, _, _] => ofCoef vars (coef E.delta i j)
  | 25, [_, .int j, _, .int i, _, _] => ofCoef vars (coef E.kappa i j)
  | 26, [_, .int j, _, .int i, _, _] => ofCoef vars (coefV E.v i j)
  | 27, [.num x] => .ok (.vec [x], vars, [])
  | 28, [.vec l, _, .num x] => .ok (.vec (x :: l), vars, [])
  | 29, [_, _] => .ok (.vec [], vars, [])
  | 30, [_, .vec l, _] => .ok (.vec l, vars, [])
  | 31, [.vec l] => .ok (.mat [l], vars, [])
  | 32, [.mat m, _, .vec l] => .ok (.mat (l :: m), vars, [])
  | 33, [_, _, _, _] => .ok (.mat [], vars, [])
  | 34, [_, .mat m, _] => .ok (.mat m, vars, [])
  | _, _ => .error .bad

/-- The value of a token (`yylval`). -/
def Tok.value (E : Env K) : Tok → Val K
  | .name s => .sym s
  | .num d => .num (E.val d)
  | .int n => .int n
  | _ => .none

/-- State of the parser: both stacks, the top first; the input; the variables; what has been written. -/
structure Cfg (K : Type) where
  stack : List (Nat × Val K)
  input : List Tok
  vars : Str → K
  out : List (Ev K)

/-- The symbol of the next token; the end of the input is symbol zero. -/
def look : List Tok → Nat
  | [] => 0
  | t :: _ => t.sym

/-- One round of the loop (`parser.cc:1155-1581`). No state can shift the error token, so that a syntax error ends the parser (`parser.cc:1679-1710`). -/
def step (E : Env K) (c : Cfg K) : Except Fin (Cfg K) :=
  match c.stack with
  | [] => .error .bad
  | (s, _) :: _ =>
    if 10000 ≤ c.stack.length then .error .exhausted
    else if s = 37 then .error .accept
    else
      match act s (look c.input) with
      | .error => .error .syntax_
      | .shift t =>
        match c.input with
        | [] => .ok { c with stack := (t, .none) :: c.stack }
        | x :: r => .ok { c with stack := (t, x.value E) :: c.stack, input := r }
      | .reduce n =>
        match c.stack.drop (yyr2.getD n 0) with
        | [] => .error .bad
        | (p, w) :: st =>
          match action E c.vars n ((c.stack.take (yyr2.getD n 0)).map Prod.snd) with
          | .error e => .error e
          | .ok (v, vars, evs) => .ok { c with stack := (goto_ p n, v) :: (p, w) :: st, vars := vars, out := c.out ++ evs }

/-- At most `n` rounds; `none` if the parser has not ended. -/
def run (E : Env K) : Nat → Cfg K → Option (Fin × List (Ev K))
  | 0, _ => none
  | n + 1, c =>
    match step E c with
    | .error e => some (e, c.out)
    | .ok c' => run E n c'

/-- The start: state zero, all variables are zero (`symtab` is a global array). -/
def Cfg.init (ts : List Tok) : Cfg K := ⟨[(0, .none)], ts, fun _ => 0, []⟩

/-- The names in the table of symbols: the functions and all names in the input (`symlook`, `parser.yy:177-195`). -/
def symbols (ts : List Tok) : List Str :=
  (["Sqrt".toList, "sqrt".toList, "exp".toList, "log".toList] ++ ts.filterMap fun t => match t with | .name s => some s | _ => none).dedup

/-- Outcome of the program. -/
inductive Outcome (K : Type)
  /-- exit with status one, or undefined behaviour, in the scanner -/
  | scanner (e : LexErr)
  /-- more than 200 names (`exit(1)`) -/
  | symbols
  /-- the parser has ended; the exit status is zero for all these, except for a failed assertion and `exit` -/
  | parser (f : Fin) (out : List (Ev K))
  | running

/-- The program on one input (`main`, `parser.yy:372-413`). -/
def calculator (E : Env K) (text : Str) : Outcome K :=
  match lex text with
  | .error e => .scanner e
  | .ok ts =>
    if 200 < (symbols ts).length then .symbols
    else
      match run E (10 * ts.length + 20) (Cfg.init ts) with
      | some (f, out) => .parser f out
      | none => .running

/-- The exit status: the result of `yyparse` is not used (`parser.yy:404-412`). -/
def Fin.status : Fin → Option Nat
  | .accept | .syntax_ | .exhausted => some 0
  | .exit => some 1
  | .assert_ | .bad => none

end Verif.Calc
