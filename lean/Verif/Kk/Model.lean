import Mathlib.MeasureTheory.Integral.IntervalIntegral.Basic
import Mathlib.Analysis.SpecialFunctions.Log.Basic
import Mathlib.Data.Int.Log
import Mathlib.Data.List.Sort
import Mathlib.Data.Prod.Lex
/-!
# The Kramers-Kronig tool and the integrator

Model of `tools/kk/kk.hpp` and `tools/integ/integ.cc` over the reals. The interpolating
function of GSL and its derivative are arbitrary functions; the adaptive quadrature is replaced by the
exact integral.
-/

namespace Verif.Kk

open Real

/-- A table of points (`tools/kk/kk.hpp:58-60`). -/
abbrev Table := List (ℝ × ℝ)

/-- The exponent returned by `frexp`. -/
noncomputable def frexpExp (m : ℝ) : ℤ := if m = 0 then 0 else Int.log 2 |m| + 1

/-- `gsl_fcmp(x1, x2, eps) == 0`: the numbers differ by at most `ldexp(eps, exponent)`, where
the exponent is that of the number with the larger magnitude. -/
def fcmpZero (x1 x2 eps : ℝ) : Prop :=
  |x1 - x2| ≤ eps * (2 : ℝ) ^ frexpExp (if |x1| > |x2| then x1 else x2)

/-- The comparison of `std::pair` used by `std::sort` (`tools/kk/kk.hpp:137`). -/
def pairLE (a b : ℝ × ℝ) : Prop := a.1 < b.1 ∨ a.1 = b.1 ∧ a.2 ≤ b.2

/-- Why the program stops (`tools/kk/kk.hpp:136-163`). -/
inductive Err
  | empty | odd | range | spline | asymmetric
  deriving DecidableEq

/-- Whether `gsl_spline_alloc` and `gsl_spline_init` succeed for Akima splines: at least five points
and strictly increasing abscissae. -/
def splineOK (x : List ℝ) : Prop := 5 ≤ x.length ∧ x.Pairwise (· < ·)

open Classical in
/-- `KK::init` (`tools/kk/kk.hpp:135-168`). The finiteness of the integral and failures of memory
allocation are not modelled. Returns the sorted table. -/
noncomputable def init (im : Table) : Except Err Table :=
  if im = [] then .error .empty
  else
    let l := im.insertionSort pairLE
    let x := l.map Prod.fst
    if l.length % 2 ≠ 0 then .error .odd
    else if ¬ fcmpZero (-(x.getD 0 0)) (x.getD (x.length - 1) 0) 1e-8 then .error .range
    else if ¬ splineOK x then .error .spline
    else if ¬ ∀ i, x.length / 2 ≤ i → i < x.length →
        fcmpZero (x.getD (x.length - i - 1) 0) (-(x.getD i 0)) 1e-8 then .error .asymmetric
    else .ok l

/-- The positive points of the grid (`tools/kk/kk.hpp:164-165`). -/
def xpos (l : Table) : List ℝ := (l.map Prod.fst).drop (l.length / 2)

/-- `gsl_atanh`. -/
noncomputable def atanh (x : ℝ) : ℝ := log ((1 + x) / (1 - x)) / 2

open Classical in
/-- The integrand (`tools/kk/kk.hpp:173-181`); `s` is the spline, `ds` its derivative. -/
noncomputable def integrand (s ds : ℝ → ℝ) (X Z : ℝ) : ℝ :=
  (if X ≠ Z then (s X - s Z) / (X - Z) else ds X) + (if -X ≠ Z then (s (-X) - s Z) / (-X - Z) else ds (-X))

open Classical in
/-- `KK::calc` for one point (`tools/kk/kk.hpp:237-257`), with the exact integral. -/
noncomputable def value (s ds : ℝ → ℝ) (Xmax Z : ℝ) : ℝ :=
  ((∫ X in (0)..Xmax, integrand s ds X Z) + (if |Z| ≠ Xmax then -s Z * 2 * atanh (Z / Xmax) else 0)) / π

/-- `KK::calc` for a grid (`tools/kk/kk.hpp:260-265`). -/
noncomputable def valueGrid (s ds : ℝ → ℝ) (Xmax : ℝ) (grid : List ℝ) : Table := grid.map fun x => (x, value s ds Xmax x)

/-- The program (`tools/kk/kk.hpp:268-275`): `interp` is the interpolation through a table and its
derivative. -/
noncomputable def program (interp : Table → (ℝ → ℝ) × (ℝ → ℝ)) (im : Table) : Except Err Table :=
  match init im with
  | .error e => .error e
  | .ok l =>
    let x := l.map Prod.fst
    .ok (valueGrid (interp l).1 (interp l).2 (x.getD (x.length - 1) 0) x)

/-- The modes of operation (`tools/kk/kk.hpp:113-115`). -/
inductive Mode
  | files | std
  deriving DecidableEq

/-- A line of output: a row of the result, or a message. -/
inductive Line
  | row (x y : ℝ)
  | message (text : String)

/-- What is written to standard output (`tools/kk/kk.hpp:83-86, 141, 158, 194-196, 205-216,
268-275`), given the result; in mode `files` the result goes to a file. -/
def stdout (m : Mode) (re : Table) : List Line :=
  (match m with
   | .files => [.message "Kramers-Kronig transformation tool", .message "input --> output", .message "Range", .message "Sum"]
   | .std => re.map fun p => .row p.1 p.2) ++ [.message "KK done!"]

/-! ## The integrator -/

open Classical in
/-- The integrands (`tools/integ/integ.cc:207-218`). -/
noncomputable def fNeg (s : ℝ → ℝ) (x : ℝ) : ℝ := if x < 0 then s x else 0

open Classical in
noncomputable def fPos (s : ℝ → ℝ) (x : ℝ) : ℝ := if x > 0 then s x else 0

noncomputable def fAbs (s : ℝ → ℝ) (x : ℝ) : ℝ := |s x|

noncomputable def fFermi (s : ℝ → ℝ) (T x : ℝ) : ℝ := s x * (1 / (1 + exp (x / T)))

/-- The five integrals (`tools/integ/integ.cc:234-261, 286-290`), exact. -/
structure Integrals where
  total : ℝ
  pos : ℝ
  neg : ℝ
  abs : ℝ
  fermi : ℝ

noncomputable def integrals (s : ℝ → ℝ) (T Xmin Xmax : ℝ) : Integrals where
  total := ∫ x in Xmin..Xmax, s x
  pos := ∫ x in Xmin..Xmax, fPos s x
  neg := ∫ x in Xmin..Xmax, fNeg s x
  abs := ∫ x in Xmin..Xmax, fAbs s x
  fermi := ∫ x in Xmin..Xmax, fFermi s T x

end Verif.Kk
