import Verif.Calc.Spec
import Verif.Inst.Spec
/-!
# Two evaluators of matrices: when they are given the same data

`instantiate` evaluates the matrices of the templates by itself (`tools/instantiate/matrix_evaluator.hpp`); before, and in scripts, the calculator `matrix` is used
(`tools/matrix`). Here: the trees of the calculator as trees of the evaluator, and what it means that both have the same data.
-/

namespace Verif.Calc
open Verif.Text (Str natStr)

variable {K : Type} [Field K] [DecidableEq K]

namespace Spec

/-- The same constants, functions, tables and numbers. -/
structure Same (I : Verif.Inst.Env K) (E : Env K) : Prop where
  pi : I.pi = E.pi
  sqrt : I.sqrt = E.sqrt
  exp : I.exp = E.exp
  log : I.log = E.log
  theta : E.theta = I.channels.map (·.1)
  xi : E.xi = I.channels.map (·.2.1)
  zeta : E.zeta = I.channels.map (·.2.2)
  /-- decimal numbers are read as the same number -/
  num : ∀ l : Verif.DataFile.Lit, l.OK → l.neg = false → Verif.Inst.Lit I l.text (E.val l.val)
  int : ∀ n : Nat, Verif.Inst.Lit I (natStr n) (n : K)
  /-- integers are their own nearest integers -/
  integral : ∀ n : Nat, I.notIntegral (n : K) = false ∧ I.round (n : K) = n

/-- An expression which both can evaluate: the variables have the same values, the four functions, tables `coefxi`, `coefzeta`, and `gammaPolCh`. -/
def Ex.common (I : Verif.Inst.Env K) (vars : Str → K) : Ex → Prop
  | .num _ | .int _ | .gamma _ => True
  | .var s => I.lookup s = .ok (vars s) ∧ s ≠ "parse".toList
  | .call s _ e => s ∈ ["Sqrt".toList, "sqrt".toList, "exp".toList, "log".toList] ∧ e.common I vars
  | .coef k _ _ => k = .xi ∨ k = .zeta
  | .neg e | .par e => e.common I vars
  | .bin _ a b => a.common I vars ∧ b.common I vars

/-- A statement which both can evaluate: an expression, a vector, a matrix with rows. -/
def St.common (I : Verif.Inst.Env K) (vars : Str → K) : St → Prop
  | .expr e => e.common I vars
  | .vec l => ∀ e ∈ l, e.common I vars
  | .mat m => m ≠ [] ∧ ∀ l ∈ m, ∀ e ∈ l, e.common I vars
  | _ => False

/-- What the calculator prints, as a matrix: a number and a vector are matrices of one row; rows of a matrix have the same length. -/
inductive Shows : Ev K → Verif.Inst.Matrix K → Prop
  | num (x : K) : Shows (.num x) ⟨1, 1, [[x]]⟩
  | none : Shows (.vec []) ⟨0, 0, []⟩
  | vec (l : List K) : l ≠ [] → Shows (.vec l) ⟨1, l.length, [l]⟩
  | mat (m : List (List K)) (c : Nat) : m ≠ [] → (∀ r ∈ m, r.length = c) → Shows (.mat m) ⟨m.length, c, m⟩

end Spec
end Verif.Calc
