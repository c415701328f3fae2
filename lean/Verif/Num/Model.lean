import Mathlib.Analysis.SpecialFunctions.Exp
import Mathlib.Analysis.SpecialFunctions.Log.Basic
/-!
# Scalar numerical helpers (`c++/numerics.hpp`, `c++/spectral.hpp`)

`double` is modelled by `ℝ` (or a linearly ordered field `K`); rounding is not
modelled.  The constants of `std::numeric_limits<double>` are the exact values
of IEEE binary64.
-/

namespace Verif.Num

section
variable {K : Type*} [Field K] [LinearOrder K]

/-- `boost::math::sign`. -/
def sgn (x : K) : Int := if x = 0 then 0 else if x < 0 then -1 else 1

/-- `my_fcmp`, `c++/numerics.hpp:130-135`. -/
def fcmp (x y smallEps relEps : K) : Int :=
  if x = 0 ∧ y = 0 then 0
  else if |x| < smallEps ∧ |y| < smallEps then 0
  else if |x - y| < relEps * (|x| + |y|) then 0
  else sgn (x - y)

/-- The three-argument `my_fcmp`, `c++/numerics.hpp:137`. -/
def fcmp3 (x y eps : K) : Int := fcmp x y eps eps

/-- `num_equal` for `double`, `c++/numerics.hpp:141-143`. -/
def numEqual (a b prec : K) : Bool := fcmp3 a b prec == 0

/-- `chop`, `c++/numerics.hpp:194`. -/
def chop (x limit : K) : K := if |x| < limit then 0 else x
end

/-- `WEIGHT_TOL`, `c++/numerics.hpp:344`. -/
noncomputable def weightTol : ℝ := 1 / 100000000

open Classical in
/-- `chit_weight`, `c++/numerics.hpp:349-362`. -/
noncomputable def chitWeight (En Em beta : ℝ) : ℝ :=
  let betaEn := beta * En
  let betaEm := beta * Em
  let x := betaEn - betaEm
  if |x| > weightTol then (Real.exp (-betaEm) - Real.exp (-betaEn)) / x
  else Real.exp (-betaEm)

/-- `std::numeric_limits<double>::epsilon()`. -/
noncomputable def dblEps : ℝ := 1 / 2 ^ 52
/-- `std::numeric_limits<double>::min()`. -/
noncomputable def dblMin : ℝ := 1 / 2 ^ 1022
/-- `std::numeric_limits<double>::max()`. -/
noncomputable def dblMax : ℝ := (2 - 1 / 2 ^ 52) * 2 ^ 1023

open Classical in
/-- `sigmoid`, `c++/spectral.hpp:86-111` (the NaN branch is not modelled). -/
noncomputable def sigmoid (x : ℝ) : ℝ :=
  if x ≥ Real.log (2 / dblEps) then 1
  else if x ≤ Real.log dblMin then 0
  else if x ≥ 0 then 1 / (1 + Real.exp (-x))
  else Real.exp x / (1 + Real.exp x)

/-- `fermi_fnc`, `c++/spectral.hpp:113-116`. -/
noncomputable def fermiFnc (omega T : ℝ) : ℝ := sigmoid (omega / T)

/-- A `double` result that may be infinite. -/
inductive Ext
  | fin (x : ℝ)
  | posInf
  | negInf

/-- `std::copysign(inf, x)`; the sign of a zero is not modelled (taken as +). -/
noncomputable def copysignInf (x : ℝ) : Ext := open Classical in if x < 0 then .negInf else .posInf

open Classical in
/-- `inv_one_minus_exp_neg`, `c++/spectral.hpp:124-155` (the NaN branch is not
modelled; `expm1(y)` is `exp y - 1`). -/
noncomputable def invOneMinusExpNeg (x : ℝ) : Ext :=
  if x = 0 then copysignInf x
  else if |x| ≤ 1 / dblMax then copysignInf x
  else if x ≥ Real.log (2 / dblEps) then .fin 1
  else if x ≤ Real.log dblMin then .fin 0
  else if x > 0 then .fin (-1 / (Real.exp (-x) - 1))
  else .fin (Real.exp x / (Real.exp x - 1))

/-- `bose_fnc`, `c++/spectral.hpp:157-160`. -/
noncomputable def boseFnc (omega T : ℝ) : Ext := invOneMinusExpNeg (omega / T)

end Verif.Num
