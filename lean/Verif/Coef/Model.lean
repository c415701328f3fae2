import Mathlib.Analysis.SpecialFunctions.Pow.Real
/-!
# The factors in the coefficient tables
(`c++/symmetry/coefnew/*/*.dat`)

The tables hold C++ expressions in the quantum numbers.  Their values are computed
in double precision; here with real numbers instead of rounded ones, but with the
rules of IEEE 754 for zeros, infinities and NaN, because a division by zero inside
an expression does not have to make its value infinite.
-/

namespace Verif.Coef

/-- An expression in a table.  `var v`: the `v`-th spin-like quantum number as the
tables see it: `S(ss1)`, `ISO(ii1)`, `J(jj1)` (`c++/invar.hpp:23-24`), or `T`. -/
inductive Ex
  | num (n : Int) (d : Nat)
  | var (v : Nat)
  | neg (a : Ex)
  | add (a b : Ex)
  | sub (a b : Ex)
  | mul (a b : Ex)
  | div (a b : Ex)
  /-- `Power(a, n)`, `c++/numerics.hpp:197`, for an integer `n` -/
  | pow (a : Ex) (n : Nat)
  /-- `Power(a, -n)` -/
  | ipow (a : Ex) (n : Nat)
  /-- `Power(a, n + 0.5)` -/
  | hpow (a : Ex) (n : Nat)
  | sqrt (a : Ex)
  deriving DecidableEq, Repr

/-- The value of a floating-point expression: a number other than zero, a signed zero,
a signed infinity, or NaN.  `true` is the negative sign. -/
inductive FVal
  | num (x : ℝ)
  | zero (s : Bool)
  | inf (s : Bool)
  | nan

namespace FVal

/-- The value of an exact computation that is not the sum of two zeros. -/
noncomputable def of (x : ℝ) : FVal := if x = 0 then zero false else num x

noncomputable def sign : FVal → Bool
  | num x => decide (x < 0)
  | zero s => s
  | inf s => s
  | nan => false

noncomputable def neg : FVal → FVal
  | num x => num (-x)
  | zero s => zero (!s)
  | inf s => inf (!s)
  | nan => nan

noncomputable def mul : FVal → FVal → FVal
  | nan, _ => nan
  | _, nan => nan
  | inf _, zero _ => nan
  | zero _, inf _ => nan
  | inf s, b => inf (s ^^ b.sign)
  | a, inf s => inf (a.sign ^^ s)
  | zero s, b => zero (s ^^ b.sign)
  | a, zero s => zero (a.sign ^^ s)
  | num x, num y => num (x * y)

noncomputable def inv : FVal → FVal
  | num x => num x⁻¹
  | zero s => inf s
  | inf s => zero s
  | nan => nan

noncomputable def add : FVal → FVal → FVal
  | nan, _ => nan
  | _, nan => nan
  | inf s, inf t => if s = t then inf s else nan
  | inf s, _ => inf s
  | _, inf t => inf t
  | zero s, zero t => zero (s && t)
  | zero _, num y => num y
  | num x, zero _ => num x
  | num x, num y => of (x + y)

noncomputable def sqrt : FVal → FVal
  | num x => if x < 0 then nan else num (Real.sqrt x)
  | zero s => zero s
  | inf s => if s then nan else inf false
  | nan => nan

/-- Integer powers; the exponents in the tables are positive. -/
noncomputable def pow (a : FVal) : Nat → FVal
  | 0 => num 1
  | 1 => a
  | n + 2 => (pow a (n + 1)).mul a

/-- `std::pow(a, n + 0.5)`. -/
noncomputable def hpow (a : FVal) (n : Nat) : FVal :=
  match a with
  | num x => if x < 0 then nan else num (Real.sqrt x ^ (2 * n + 1))
  | zero _ => zero false
  | inf _ => inf false
  | nan => nan

/-- The value if it is finite: `std::isfinite`. -/
noncomputable def toReal : FVal → Option ℝ
  | num x => some x
  | zero _ => some 0
  | _ => none

end FVal

/-- The value of an expression. -/
noncomputable def Ex.eval (env : Nat → ℝ) : Ex → FVal
  | num n d => .of ((n : ℝ) / d)
  | var v => .of (env v)
  | neg a => (a.eval env).neg
  | add a b => (a.eval env).add (b.eval env)
  | sub a b => (a.eval env).add (b.eval env).neg
  | mul a b => (a.eval env).mul (b.eval env)
  | div a b => (a.eval env).mul (b.eval env).inv
  | pow a n => (a.eval env).pow n
  | ipow a n => ((a.eval env).pow n).inv
  | hpow a n => (a.eval env).hpow n
  | sqrt a => (a.eval env).sqrt

end Verif.Coef
