import Verif.Inst.Model
/-!
# Matrix templates: what the text means

Expression trees with their value (`eval`), and the relation `Text` between a tree and the
texts that denote it: usual precedence, left association, arbitrary redundant parentheses,
white space and comments.  Nothing here refers to the parser.
-/

namespace Verif.Inst
open Verif.Text

/-- Text without meaning: white space and complete comments. -/
inductive Ign : Str → Prop
  | nil : Ign []
  | space (c : Char) (s : Str) (hc : isSpace c = true) (h : Ign s) : Ign (c :: s)
  | comment (t s : Str) (ht : '\n' ∉ t) (h : Ign s) : Ign ('#' :: (t ++ '\n' :: s))

/-- Arithmetic expressions. -/
inductive Ex (K : Type) where
  | num (v : K)
  | var (name : Str)
  | neg (e : Ex K)
  | pos (e : Ex K)
  | add (a b : Ex K)
  | sub (a b : Ex K)
  | mul (a b : Ex K)
  | div (a b : Ex K)
  | call (name : Str) (args : List (Ex K))

variable {K : Type} [Field K] [DecidableEq K]

mutual
/-- The value of an expression, or the first error from left to right. -/
def Ex.eval (E : Env K) : Ex K → Except Err K
  | .num v => .ok v
  | .var name => if name = "parse".toList then .error .parseDirective else E.lookup name
  | .neg e =>
    match Ex.eval E e with
    | .error x => .error x
    | .ok v => .ok (-v)
  | .pos e => Ex.eval E e
  | .add a b =>
    match Ex.eval E a with
    | .error x => .error x
    | .ok v =>
      match Ex.eval E b with
      | .error x => .error x
      | .ok w => .ok (v + w)
  | .sub a b =>
    match Ex.eval E a with
    | .error x => .error x
    | .ok v =>
      match Ex.eval E b with
      | .error x => .error x
      | .ok w => .ok (v - w)
  | .mul a b =>
    match Ex.eval E a with
    | .error x => .error x
    | .ok v =>
      match Ex.eval E b with
      | .error x => .error x
      | .ok w => .ok (v * w)
  | .div a b =>
    match Ex.eval E a with
    | .error x => .error x
    | .ok v =>
      match Ex.eval E b with
      | .error x => .error x
      | .ok w => if w = 0 then .error .divZero else .ok (v / w)
  | .call name args =>
    match Ex.evalList E args with
    | .error x => .error x
    | .ok vs => E.call name vs
/-- The values of a list of expressions. -/
def Ex.evalList (E : Env K) : List (Ex K) → Except Err (List K)
  | [] => .ok []
  | e :: es =>
    match Ex.eval E e with
    | .error x => .error x
    | .ok v =>
      match Ex.evalList E es with
      | .error x => .error x
      | .ok vs => .ok (v :: vs)
end

/-- The characters that can follow a number or a name. -/
def delimiters : List Char := ['+', '-', '*', '/', ')', ']', '}', ',']

/-- The text ends here or goes on with a delimiter. -/
def Delimited (rest : Str) : Prop :=
  rest = [] ∨ ∃ c t, rest = c :: t ∧ (isSpace c = true ∨ c = '#' ∨ c ∈ delimiters)

/-- `t` is the notation of the number `v`. -/
def Lit (E : Env K) (t : Str) (v : K) : Prop :=
  (∃ c u, t = c :: u ∧ (isDigit c = true ∨ c = '.')) ∧ ∀ rest, Delimited rest → E.strtod (t ++ rest) = some (v, rest)

/-- `nm` is a name: letters, digits and underscores, not beginning with a digit. -/
def IsName (nm : Str) : Prop := (∃ c u, nm = c :: u ∧ (isAlpha c = true ∨ c = '_')) ∧ ∀ c ∈ nm, identChar c = true

/-- The kinds of phrases. -/
inductive Cat (K : Type) where
  | expr (e : Ex K)
  | product (e : Ex K)
  | unary (e : Ex K)
  | primary (e : Ex K)
  | args (es : List (Ex K))

/-- A pair of brackets that can enclose arguments. -/
def Brackets (o c : Char) : Prop := (o = '(' ∧ c = ')') ∨ (o = '[' ∧ c = ']')

/-- The texts of a phrase. -/
inductive Text (E : Env K) : Cat K → Str → Prop
  | num {i t v} (hi : Ign i) (ht : Lit E t v) : Text E (.primary (.num v)) (i ++ t)
  | var {i nm} (hi : Ign i) (hn : IsName nm) : Text E (.primary (.var nm)) (i ++ nm)
  | paren {i s j e} (hi : Ign i) (h : Text E (.expr e) s) (hj : Ign j) :
      Text E (.primary e) (i ++ '(' :: (s ++ (j ++ [')'])))
  | call0 {i nm j o k c} (hi : Ign i) (hn : IsName nm) (hj : Ign j) (hb : Brackets o c) (hk : Ign k) :
      Text E (.primary (.call nm [])) (i ++ (nm ++ (j ++ o :: (k ++ [c]))))
  | call {i nm j o s k c es} (hi : Ign i) (hn : IsName nm) (hj : Ign j) (hb : Brackets o c)
      (h : Text E (.args es) s) (hk : Ign k) :
      Text E (.primary (.call nm es)) (i ++ (nm ++ (j ++ o :: (s ++ (k ++ [c])))))
  | argOne {e s} (h : Text E (.expr e) s) : Text E (.args [e]) s
  | argMore {e s j es t} (h : Text E (.expr e) s) (hj : Ign j) (h' : Text E (.args es) t) :
      Text E (.args (e :: es)) (s ++ (j ++ ',' :: t))
  | ofPrimary {e s} (h : Text E (.primary e) s) : Text E (.unary e) s
  | neg {i e s} (hi : Ign i) (h : Text E (.unary e) s) : Text E (.unary (.neg e)) (i ++ '-' :: s)
  | pos {i e s} (hi : Ign i) (h : Text E (.unary e) s) : Text E (.unary (.pos e)) (i ++ '+' :: s)
  | ofUnary {e s} (h : Text E (.unary e) s) : Text E (.product e) s
  | mul {a s j b t} (h : Text E (.product a) s) (hj : Ign j) (h' : Text E (.unary b) t) :
      Text E (.product (.mul a b)) (s ++ (j ++ '*' :: t))
  | div {a s j b t} (h : Text E (.product a) s) (hj : Ign j) (h' : Text E (.unary b) t) :
      Text E (.product (.div a b)) (s ++ (j ++ '/' :: t))
  | ofProduct {e s} (h : Text E (.product e) s) : Text E (.expr e) s
  | add {a s j b t} (h : Text E (.expr a) s) (hj : Ign j) (h' : Text E (.product b) t) :
      Text E (.expr (.add a b)) (s ++ (j ++ '+' :: t))
  | sub {a s j b t} (h : Text E (.expr a) s) (hj : Ign j) (h' : Text E (.product b) t) :
      Text E (.expr (.sub a b)) (s ++ (j ++ '-' :: t))

/-- Values: expressions and nested lists. -/
inductive VEx (K : Type) where
  | scalar (e : Ex K)
  | list (items : List (VEx K))

mutual
/-- The value, or the first error from left to right. -/
def VEx.eval (E : Env K) : VEx K → Except Err (Value K)
  | .scalar e =>
    match e.eval E with
    | .error x => .error x
    | .ok v => .ok (.scalar v)
  | .list l =>
    match VEx.evalList E l with
    | .error x => .error x
    | .ok vs => .ok (.list vs)
/-- The values of a list. -/
def VEx.evalList (E : Env K) : List (VEx K) → Except Err (List (Value K))
  | [] => .ok []
  | e :: es =>
    match VEx.eval E e with
    | .error x => .error x
    | .ok v =>
      match VEx.evalList E es with
      | .error x => .error x
      | .ok vs => .ok (v :: vs)
end

/-- A value or the inside of a list. -/
inductive VCat (K : Type) where
  | value (v : VEx K)
  | items (l : List (VEx K))

/-- The texts of values. -/
inductive VText (E : Env K) : VCat K → Str → Prop
  | scalar {e s} (h : Text E (.expr e) s) : VText E (.value (.scalar e)) s
  | empty {i j} (hi : Ign i) (hj : Ign j) : VText E (.value (.list [])) (i ++ '{' :: (j ++ ['}']))
  | list {i l s j} (hi : Ign i) (h : VText E (.items l) s) (hj : Ign j) :
      VText E (.value (.list l)) (i ++ '{' :: (s ++ (j ++ ['}'])))
  | one {v s} (h : VText E (.value v) s) : VText E (.items [v]) s
  | more {v s j l t} (h : VText E (.value v) s) (hj : Ign j) (h' : VText E (.items l) t) :
      VText E (.items (v :: l)) (s ++ (j ++ ',' :: t))

/-- What the evaluator needs of `strtod`: when it reads a number it moves on. -/
def Progress (E : Env K) : Prop := ∀ s v t, E.strtod s = some (v, t) → t.length < s.length

/-- Nothing but ignorable text, possibly ending with a comment that is not terminated. -/
def IgnEnd (s : Str) : Prop := Ign s ∨ ∃ i t, Ign i ∧ '\n' ∉ t ∧ s = i ++ '#' :: t

end Verif.Inst
