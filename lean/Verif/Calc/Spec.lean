import Verif.Calc.Model
import Verif.DataFile.Spec
import Mathlib.Data.Finset.Card
/-!
# What the calculator should compute

Expressions as trees, how they are written with as few parentheses as the usual rules of precedence allow, and their values.
-/

namespace Verif.Calc
open Verif.Text (Str isDigit)
open Verif.DataFile (Dec)

namespace Spec

/-- The four operations. -/
inductive Op | add | sub | mul | div
  deriving DecidableEq

/-- The sign of an operation. -/
def Op.tok : Op → Tok
  | .add => .ch '+'
  | .sub => .ch '-'
  | .mul => .ch '*'
  | .div => .ch '/'

/-- Multiplication and division bind more tightly. -/
def Op.prec : Op → Nat
  | .add | .sub => 1
  | .mul | .div => 2

/-- Tables of the Wilson chain. -/
inductive Coef | xi | zeta | delta | kappa | v
  deriving DecidableEq

/-- The name of a table. -/
def Coef.tok : Coef → Tok
  | .xi => .xi
  | .zeta => .zeta
  | .delta => .delta
  | .kappa => .kappa
  | .v => .v

/-- Expressions; `par` stands for a pair of parentheses more than necessary, `call f sq e` for `f[e]` or `f(e)`. -/
inductive Ex
  | num (d : Dec)
  | int (n : Nat)
  | var (s : Str)
  | call (s : Str) (sq : Bool) (e : Ex)
  | gamma (i : Nat)
  | coef (k : Coef) (i j : Nat)
  | neg (e : Ex)
  | par (e : Ex)
  | bin (o : Op) (a b : Ex)
  deriving DecidableEq

/-- Parentheses around a text. -/
def paren (b : Bool) (l : List Tok) : List Tok := if b then .ch '(' :: (l ++ [.ch ')']) else l

/-- How an expression is written where operations of precedence at least `p` need no parentheses. Operations of the same precedence group to the left, a minus sign binds
to what follows immediately. -/
def Ex.pr : Ex → Nat → List Tok
  | .num d, _ => [.num d]
  | .int n, _ => [.int n]
  | .var s, _ => [.name s]
  | .call s sq e, _ => [.name s, .ch (if sq then '[' else '(')] ++ e.pr 1 ++ [.ch (if sq then ']' else ')')]
  | .gamma i, _ => [.gamma, .ch '[', .int i, .ch ']']
  | .coef k i j, _ => [k.tok, .ch '[', .int i, .ch ',', .int j, .ch ']']
  | .neg e, _ => .ch '-' :: e.pr 3
  | .par e, _ => paren true (e.pr 1)
  | .bin o a b, p => paren (decide (o.prec < p)) (a.pr o.prec ++ o.tok :: b.pr (o.prec + 1))

/-- Depth of the stack which an expression needs. -/
def Ex.need : Ex → Nat → Nat
  | .num _, _ => 1
  | .int _, _ => 1
  | .var _, _ => 1
  | .call _ _ e, _ => 2 + max (e.need 1) 2
  | .gamma _, _ => 4
  | .coef _ _ _, _ => 6
  | .neg e, _ => 1 + e.need 3
  | .par e, _ => 1 + max (e.need 1) 2
  | .bin o a b, p => if o.prec < p then 1 + max (max (a.need o.prec) (2 + b.need (o.prec + 1))) 2 else max (a.need o.prec) (2 + b.need (o.prec + 1))

variable {K : Type} [Field K] [DecidableEq K]

/-- A computation which writes messages and may fail. -/
def andThen {α β : Type} (r : List (Ev K) × Option α) (f : α → List (Ev K) × Option β) : List (Ev K) × Option β :=
  match r.2 with
  | none => (r.1, none)
  | some x => (r.1 ++ (f x).1, (f x).2)

/-- The known functions. -/
def fns (E : Env K) : List (Str × (K → K)) := [("Sqrt".toList, E.sqrt), ("sqrt".toList, E.sqrt), ("exp".toList, E.exp), ("log".toList, E.log)]

/-- The table of a coefficient. -/
def table (E : Env K) : Coef → List (List K)
  | .xi => E.xi
  | .zeta => E.zeta
  | .delta => E.delta
  | .kappa => E.kappa
  | .v => E.v

/-- A coefficient of the Wilson chain: channels are counted from one, sites from zero; both indices of `coefV` are counted from one. -/
def entry (E : Env K) : Coef → Nat → Nat → Option K
  | _, 0, _ => none
  | .v, _ + 1, 0 => none
  | .v, i + 1, j + 1 => ((table E .v)[i]?).bind (·[j]?)
  | k, i + 1, j => ((table E k)[i]?).bind (·[j]?)

/-- The hybridisation of a channel. -/
def hybrid (E : Env K) : Nat → Option K
  | 0 => none
  | i + 1 => (E.theta[i]?).map fun t => E.sqrt (t / E.pi)

/-- An operation: a division by zero is reported, and its result is the numerator. -/
def Op.apply (o : Op) (x y : K) : List (Ev K) × Option K :=
  match o with
  | .add => ([], some (x + y))
  | .sub => ([], some (x - y))
  | .mul => ([], some (x * y))
  | .div => if y = 0 then ([.divZero], some x) else ([], some (x / y))

/-- Application of a function: an unknown one is reported and gives zero. -/
def applyFn (E : Env K) (s : Str) (x : K) : List (Ev K) × Option K :=
  match (fns E).lookup s with
  | some f => ([], some (f x))
  | none => ([.notFunction s], some 0)

/-- The value of an expression with the messages; no value if a coefficient does not exist. -/
def Ex.eval (E : Env K) (vars : Str → K) : Ex → List (Ev K) × Option K
  | .num d => ([], some (E.val d))
  | .int n => ([], some (n : K))
  | .var s => ([], some (vars s))
  | .call s _ e => andThen (e.eval E vars) (applyFn E s)
  | .gamma i => ([], hybrid E i)
  | .coef k i j => ([], entry E k i j)
  | .neg e => andThen (e.eval E vars) fun x => ([], some (-x))
  | .par e => e.eval E vars
  | .bin o a b => andThen (a.eval E vars) fun x => andThen (b.eval E vars) fun y => o.apply x y

/-- Elements separated by commas. -/
def commas : List (List Tok) → List Tok
  | [] => []
  | [x] => x
  | x :: l => x ++ .ch ',' :: commas l

/-- Braces around elements. -/
def braces (l : List (List Tok)) : List Tok := .ch '{' :: (commas l ++ [.ch '}'])

/-- Statements: assignment, expression, vector, matrix (not a matrix with one empty row, see `St.ok`), empty line. -/
inductive St
  | assign (s : Str) (e : Ex)
  | expr (e : Ex)
  | vec (l : List Ex)
  | mat (m : List (List Ex))
  | empty

/-- How a statement is written. The matrix without rows is written `{{}}`. -/
def St.pr : St → List Tok
  | .assign s e => .name s :: .ch '=' :: e.pr 1
  | .expr e => e.pr 1
  | .vec l => braces (l.map (·.pr 1))
  | .mat [] => [.ch '{', .ch '{', .ch '}', .ch '}']
  | .mat m => braces (m.map fun l => braces (l.map (·.pr 1)))
  | .empty => []

/-- `{{}}` is the matrix without rows. -/
def St.ok : St → Prop
  | .mat m => m ≠ [[]]
  | _ => True

/-- Values of several expressions. -/
def evalList (E : Env K) (vars : Str → K) : List Ex → List (Ev K) × Option (List K)
  | [] => ([], some [])
  | e :: l => andThen (e.eval E vars) fun x => andThen (evalList E vars l) fun xs => ([], some (x :: xs))

/-- Values of several rows. -/
def evalRows (E : Env K) (vars : Str → K) : List (List Ex) → List (Ev K) × Option (List (List K))
  | [] => ([], some [])
  | r :: m => andThen (evalList E vars r) fun x => andThen (evalRows E vars m) fun xs => ([], some (x :: xs))

/-- The effect of a statement: what is written, and the variables. -/
def St.exec (E : Env K) (vars : Str → K) : St → List (Ev K) × Option (Str → K)
  | .assign s e => andThen (e.eval E vars) fun x => ([], some (Function.update vars s x))
  | .expr e => andThen (e.eval E vars) fun x => ([.num x], some vars)
  | .vec l => andThen (evalList E vars l) fun x => ([.vec x], some vars)
  | .mat m => andThen (evalRows E vars m) fun x => ([.mat x], some vars)
  | .empty => ([], some vars)

/-- A program is a sequence of lines. -/
def prPr (p : List St) : List Tok := p.flatMap fun s => s.pr ++ [.ch '\n']

/-- The effect of a program. -/
def execPr (E : Env K) : (Str → K) → List St → List (Ev K) × Option (Str → K)
  | vars, [] => ([], some vars)
  | vars, s :: p => andThen (s.exec E vars) fun v => execPr E v p

/-- Depth of the stack for a list of elements: every further element needs two places more. -/
def needList : List Nat → Nat
  | [] => 0
  | n :: l => max n (2 + needList l)

/-- Depth of the stack for a statement. -/
def St.need : St → Nat
  | .assign _ e => 2 + e.need 1
  | .expr e => e.need 1
  | .vec l => 1 + max (needList (l.map (·.need 1))) 2
  | .mat m => 1 + max (needList (m.map fun l => 1 + max (needList (l.map (·.need 1))) 2)) 4
  | .empty => 1

/-! ### The grammar as written in `tools/matrix/parser.yy:81-173` -/

/-- Expressions. -/
inductive IsExpr : List Tok → Prop
  | num (d : Dec) : IsExpr [.num d]
  | int (n : Nat) : IsExpr [.int n]
  | var (s : Str) : IsExpr [.name s]
  | bin (o : Op) {a b : List Tok} : IsExpr a → IsExpr b → IsExpr (a ++ o.tok :: b)
  | neg {a : List Tok} : IsExpr a → IsExpr (.ch '-' :: a)
  | par {a : List Tok} : IsExpr a → IsExpr (.ch '(' :: (a ++ [.ch ')']))
  | call (s : Str) (sq : Bool) {a : List Tok} : IsExpr a → IsExpr (.name s :: .ch (if sq then '[' else '(') :: (a ++ [.ch (if sq then ']' else ')')]))
  | gamma (i : Nat) : IsExpr [.gamma, .ch '[', .int i, .ch ']']
  | coef (k : Coef) (i j : Nat) : IsExpr [k.tok, .ch '[', .int i, .ch ',', .int j, .ch ']']

/-- Expressions separated by commas. -/
inductive IsList : List Tok → Prop
  | one {a : List Tok} : IsExpr a → IsList a
  | cons {a b : List Tok} : IsExpr a → IsList b → IsList (a ++ .ch ',' :: b)

/-- Vectors. -/
inductive IsVec : List Tok → Prop
  | nil : IsVec [.ch '{', .ch '}']
  | list {a : List Tok} : IsList a → IsVec (.ch '{' :: (a ++ [.ch '}']))

/-- Vectors separated by commas. -/
inductive IsRows : List Tok → Prop
  | one {a : List Tok} : IsVec a → IsRows a
  | cons {a b : List Tok} : IsVec a → IsRows b → IsRows (a ++ .ch ',' :: b)

/-- Matrices. -/
inductive IsMat : List Tok → Prop
  | nil : IsMat [.ch '{', .ch '{', .ch '}', .ch '}']
  | rows {a : List Tok} : IsRows a → IsMat (.ch '{' :: (a ++ [.ch '}']))

/-- Statements. -/
inductive IsStmt : List Tok → Prop
  | assign (s : Str) {a : List Tok} : IsExpr a → IsStmt (.name s :: .ch '=' :: a)
  | expr {a : List Tok} : IsExpr a → IsStmt a
  | vec {a : List Tok} : IsVec a → IsStmt a
  | mat {a : List Tok} : IsMat a → IsStmt a
  | empty : IsStmt []

/-- Programs. -/
inductive IsProg : List Tok → Prop
  | one {a : List Tok} : IsStmt a → IsProg (a ++ [.ch '\n'])
  | snoc {a b : List Tok} : IsProg a → IsStmt b → IsProg (a ++ (b ++ [.ch '\n']))

/-! ### How tokens are spelled -/

/-- Words with a meaning of their own. -/
def keywords : List (Str × Option Tok) :=
  [("gammaPolCh".toList, some .gamma), ("coefxi".toList, some .xi), ("coefzeta".toList, some .zeta), ("coefdelta".toList, some .delta), ("coefkappa".toList, some .kappa),
    ("coefV".toList, some .v), ("parse".toList, none)]

/-- The letters. -/
def alphabet : List Char :=
  ['A', 'B', 'C', 'D', 'E', 'F', 'G', 'H', 'I', 'J', 'K', 'L', 'M', 'N', 'O', 'P', 'Q', 'R', 'S', 'T', 'U', 'V', 'W', 'X', 'Y', 'Z',
    'a', 'b', 'c', 'd', 'e', 'f', 'g', 'h', 'i', 'j', 'k', 'l', 'm', 'n', 'o', 'p', 'q', 'r', 's', 't', 'u', 'v', 'w', 'x', 'y', 'z']

/-- The decimal digits. -/
def numerals : List Char := ['0', '1', '2', '3', '4', '5', '6', '7', '8', '9']

/-- A letter. -/
def isLetter (c : Char) : Bool := decide (c ∈ alphabet)

/-- A character of a name: letters, digits, the underscore. -/
def isNameChar (c : Char) : Bool := decide (c ∈ alphabet ++ numerals ++ ['_'])

/-- The number of different names in a text, except those of the four functions. -/
def nameCount (ts : List Tok) : Nat :=
  ((ts.filterMap fun t => match t with | .name s => some s | _ => none).toFinset \ {"Sqrt".toList, "sqrt".toList, "exp".toList, "log".toList}).card

/-- The spelling of tokens: names, integers, decimal numbers with a point, numbers like `3e-5`, words, signs. -/
inductive Spells : Tok → Str → Prop
  | name (c : Char) (s : Str) : isLetter c = true → (∀ d ∈ s, isNameChar d = true) → (∀ k ∈ keywords, k.1 ≠ c :: s) → Spells (.name (c :: s)) (c :: s)
  | int (n : Nat) : n < 2 ^ 31 → Spells (.int n) (Verif.Text.natStr n)
  | num (l : Verif.DataFile.Lit) (f : Str) : l.OK → l.neg = false → l.fp = some f → Spells (.num l.val) l.text
  | short (l : Verif.DataFile.Lit) (c : Char) (x : Verif.DataFile.Expo) : l.OK → l.neg = false → l.fp = none → l.ip = [c] → c ≠ '0' → l.ex = some x → x.upper = false →
      Spells (.num l.val) l.text
  | word (k : Str) (t : Tok) : (k, some t) ∈ keywords → Spells t k
  | sign (c : Char) : c ∈ ['(', ')', '*', '+', ',', '-', '/', '=', '[', ']', '{', '}'] → Spells (.ch c) [c]

/-- No character of this kind at the beginning. -/
def NotAt (p : Char → Bool) (s : Str) : Prop := ∀ c ∈ s.head?, p c = false

/-- What may follow a token immediately: nothing that would make it longer. A name must not be followed by an equal sign and a letter, an opening bracket not by a letter. -/
def MayFollow : Tok → Str → Prop
  | .ch c, s => c = '[' → NotAt isLetter s
  | .int _, s => NotAt (fun c => isDigit c || c == '.' || c == 'e') s
  | .num _, s => NotAt (fun c => isDigit c || c == 'e' || c == 'E') s
  | _, s => NotAt isNameChar s ∧ (s.head? = some '=' → NotAt isLetter s.tail)

/-- A text, with the number of open braces; the first argument tells whether a line begins. Blanks and tabulators may stand between tokens, ends of lines within braces
are not tokens, a line that begins with `#` is a comment, a dollar sign ends the text. -/
inductive Written : Bool → Nat → List Tok → Str → Prop
  | nil (bol : Bool) (br : Nat) : Written bol br [] []
  | stop (bol : Bool) (br : Nat) (s : Str) : Written bol br [] ('$' :: s)
  | tok {bol : Bool} {br br' : Nat} {t : Tok} {w : Str} {ts : List Tok} {s : Str} : Spells t w → MayFollow t s → (t = .ch '{' → br' = br + 1) → (t = .ch '}' → br = br' + 1) →
      (t ≠ .ch '{' → t ≠ .ch '}' → br' = br) → Written false br' ts s → Written bol br (t :: ts) (w ++ s)
  | line {bol : Bool} {ts : List Tok} {s : Str} : Written true 0 ts s → Written bol 0 (.ch '\n' :: ts) ('\n' :: s)
  | inner {bol : Bool} {br : Nat} {ts : List Tok} {s : Str} : Written true (br + 1) ts s → Written bol (br + 1) ts ('\n' :: s)
  | blank {bol : Bool} {br : Nat} {ts : List Tok} {c : Char} {s : Str} : c = ' ' ∨ c = '\t' → Written false br ts s → Written bol br ts (c :: s)
  | comment {br : Nat} {ts : List Tok} {t s : Str} : '\n' ∉ t → Written false br ts ('\n' :: s) → Written true br ts ('#' :: (t ++ '\n' :: s))

end Spec
end Verif.Calc
