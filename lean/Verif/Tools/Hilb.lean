import Mathlib.Analysis.SpecialFunctions.Log.Basic
import Mathlib.Analysis.SpecialFunctions.Trigonometric.Arctan
import Mathlib.MeasureTheory.Integral.IntervalIntegral.Basic
/-!
# Hilbert transform (`tools/hilb/hilb.hpp`)

Real arithmetic.  The adaptive quadrature of GSL is modelled by the exact integral; the
spline is an arbitrary function.  Division by `|y| = 0` is not modelled (the theorems assume
`y ≠ 0`; `do_hilb` never passes zero).
-/

namespace Verif.Tools.Hilb

open MeasureTheory Real

/-- `imQ`, `tools/hilb/hilb.hpp:170`. -/
noncomputable def imQ (x y B : ℝ) : ℝ := arctan ((-B + x) / y) - arctan ((B + x) / y)

/-- `reQ`, `tools/hilb/hilb.hpp:173`. -/
noncomputable def reQ (x y B : ℝ) : ℝ := (-log ((B - x) ^ 2 + y ^ 2) + log ((B + x) ^ 2 + y ^ 2)) / 2

/-- `ln1016`, `tools/hilb/hilb.hpp:212`. -/
noncomputable def ln1016 : ℝ := -36.8

/-- The variables set in `tools/hilb/hilb.hpp:208-230`. -/
structure Limits where
  lim1down : ℝ
  lim1up : ℝ
  lim2down : ℝ
  lim2up : ℝ
  inside : Bool

/-- The case distinction, `tools/hilb/hilb.hpp:205-229`. -/
noncomputable def limits (x y B : ℝ) : Limits :=
  let W1 := (x - B) / |y|
  let W2 := (B + x) / |y|
  if W1 < 0 ∧ W2 > 0 then ⟨ln1016, log (-W1), ln1016, log W2, true⟩
  else if W1 > 0 ∧ W2 > 0 then ⟨1, -1, log W1, log W2, false⟩
  else if W1 < 0 ∧ W2 < 0 then ⟨log (-W2), log (-W1), 1, -1, false⟩
  else ⟨1, -1, 1, -1, true⟩

/-- `integrator::operator()`, `tools/hilb/hilb.hpp:113-119`, called for `lim1down < lim1up`
only. -/
noncomputable def integrIf (f : ℝ → ℝ) (a b : ℝ) : ℝ := if a < b then ∫ r in a..b, f r else 0

/-- `calcA`, `tools/hilb/hilb.hpp:204-234`. -/
noncomputable def calcA (x y B : ℝ) (f3p f3m : ℝ → ℝ) (d : ℝ) : ℝ :=
  let l := limits x y B
  integrIf f3p l.lim1down l.lim1up + integrIf f3m l.lim2down l.lim2up + if l.inside then d else 0

/-- `ref0`, `tools/hilb/hilb.hpp:239`. -/
noncomputable def ref0 (x y : ℝ) (rhor rhoi : ℝ → ℝ) (w : ℝ) : ℝ :=
  (rhor w * (x - w) + rhoi w * y) / (y ^ 2 + (x - w) ^ 2)

/-- `imf0`, `tools/hilb/hilb.hpp:242`. -/
noncomputable def imf0 (x y : ℝ) (rhor rhoi : ℝ → ℝ) (w : ℝ) : ℝ :=
  (rhor w * (-y) + rhoi w * (x - w)) / (y ^ 2 + (x - w) ^ 2)

/-- `ref1`, `tools/hilb/hilb.hpp:245-247`. -/
noncomputable def ref1 (x y : ℝ) (rhor rhoi : ℝ → ℝ) (w : ℝ) : ℝ :=
  ((rhor w - rhor x) * (x - w) + (rhoi w - rhoi x) * y) / (y ^ 2 + (x - w) ^ 2)

/-- `imf1`, `tools/hilb/hilb.hpp:254-256`. -/
noncomputable def imf1 (x y : ℝ) (rhor rhoi : ℝ → ℝ) (w : ℝ) : ℝ :=
  ((rhor w - rhor x) * (-y) + (rhoi w - rhoi x) * (x - w)) / (y ^ 2 + (x - w) ^ 2)

/-- `ref2`, `imf2`: `tools/hilb/hilb.hpp:248,257`. -/
noncomputable def f2 (x y : ℝ) (f1 : ℝ → ℝ) (W : ℝ) : ℝ := |y| * f1 (|y| * W + x)

/-- `ref3p`, `imf3p`: `tools/hilb/hilb.hpp:249,258`. -/
noncomputable def f3p (x y : ℝ) (f1 : ℝ → ℝ) (r : ℝ) : ℝ := f2 x y f1 (exp r) * exp r

/-- `ref3m`, `imf3m`: `tools/hilb/hilb.hpp:250,259`. -/
noncomputable def f3m (x y : ℝ) (f1 : ℝ → ℝ) (r : ℝ) : ℝ := f2 x y f1 (-exp r) * exp r

/-- `calc`, `tools/hilb/hilb.hpp:235-236`. -/
noncomputable def calcPart (x y B lim : ℝ) (f1 f0 : ℝ → ℝ) (d : ℝ) : ℝ :=
  if |y| < lim then calcA x y B (f3p x y f1) (f3m x y f1) d else ∫ w in (-B)..B, f0 w

/-- The real part of the result of `hilbert_transform`, `tools/hilb/hilb.hpp:195-263`. -/
noncomputable def hilbertRe (rhor rhoi : ℝ → ℝ) (B x y lim : ℝ) : ℝ :=
  calcPart x y B lim (ref1 x y rhor rhoi) (ref0 x y rhor rhoi) (rhor x * reQ x y B - rhoi x * imQ x y B)

/-- The imaginary part. -/
noncomputable def hilbertIm (rhor rhoi : ℝ → ℝ) (B x y lim : ℝ) : ℝ :=
  calcPart x y B lim (imf1 x y rhor rhoi) (imf0 x y rhor rhoi) (rhor x * imQ x y B + rhoi x * reQ x y B)

/-- `interpolator::operator()`, `tools/hilb/hilb.hpp:163`, for a spline `s`. -/
noncomputable def interpolated (s : ℝ → ℝ) (Xmin Xmax x : ℝ) : ℝ := if Xmin ≤ x ∧ x ≤ Xmax then s x else 0

/-- `bandwidth`, `tools/hilb/hilb.hpp:176-181`. -/
noncomputable def bandwidth (Xmin Xmax : ℝ) : ℝ := max |Xmin| |Xmax|

/-- The argument `(x, y)` that `do_hilb` passes on for one line, `tools/hilb/hilb.hpp:326-333`;
`none` is the exception. -/
noncomputable def hilbArg (label1 label2 x y : ℝ) : Option (ℝ × ℝ) :=
  if |label1 - label2| > 1e-6 then none else some (label1 - x, -(min y (-1e-8)))

end Verif.Tools.Hilb
