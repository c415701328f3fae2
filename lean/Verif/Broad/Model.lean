import Mathlib.Analysis.SpecialFunctions.Log.Basic
import Mathlib.Analysis.SpecialFunctions.Sqrt
import Mathlib.Analysis.Complex.Trigonometric
import Mathlib.Analysis.Real.Pi.Bounds
/-!
# Broadening of raw spectra

`tools/broaden/broaden.hpp` and the kernels of `c++/spectral.hpp`.  Real numbers, exact
arithmetic.  `log 0`, `exp (-∞)` and division by zero: where the code reaches them with a
defined result (`h` at frequency zero) the model has a separate case; the logarithmic kernel
at output frequency zero, where the code gives `0/0`, is outside the model (the value `0` the
model has there is never used: a single point does not change an integral).
-/

namespace Verif.Broad

/-- The settings that select the kernel: `alpha`, `omega0`, `accumulation`, `normalization`
(option `-n`), `gaussian` (option `-g`), `tools/broaden/broaden.hpp:175-207`. -/
structure Settings where
  alpha : ℝ
  omega0 : ℝ
  accumulation : ℝ
  normalization : Bool
  gaussian : Bool

/-- What the command line checks, `tools/broaden/broaden.hpp:317-329`: `alpha > 0`, `T > 0`
and `omega0_ratio > 0`, so `omega0 = omega0_ratio * T > 0`. -/
structure Settings.OK (S : Settings) : Prop where
  alpha : 0 < S.alpha
  omega0 : 0 < S.omega0

/-- The formula shared by `BR_L_orig` and `BR_L_acc` after the shift; also `BR_L` of
`c++/spectral.hpp:46-51`.  `tools/broaden/broaden.hpp:424-428, 445-448`. -/
noncomputable def logGauss (alpha e ept : ℝ) : ℝ :=
  if (e < 0 ∧ 0 < ept) ∨ (0 < e ∧ ept < 0) then 0
  else if ept = 0 then 0
  else
    let gamma := alpha / 4
    Real.exp (-(Real.log (e / ept) / alpha - gamma) ^ 2) / (alpha * |e| * Real.sqrt Real.pi)

/-- The shift of both energies in `BR_L_acc`, `tools/broaden/broaden.hpp:433-444`.  The two
`if`s follow each other: the second sees the energies changed by the first. -/
noncomputable def shift (acc e0 ept0 : ℝ) : ℝ × ℝ :=
  let p := if acc < e0 ∧ acc < ept0 then (e0 - acc, ept0 - acc) else (e0, ept0)
  if p.1 < -acc ∧ p.2 < -acc then (p.1 - -acc, p.2 - -acc) else p

/-- `BR_L_acc`, `tools/broaden/broaden.hpp:432-449`. -/
noncomputable def brL (alpha acc e0 ept0 : ℝ) : ℝ :=
  logGauss alpha (shift acc e0 ept0).1 (shift acc e0 ept0).2

/-- `BR_G` with width `omega0` and `BR_G_alpha` with width `alpha`,
`tools/broaden/broaden.hpp:454-461`; `BR_G` of `c++/spectral.hpp:55`. -/
noncomputable def brG (width e ept : ℝ) : ℝ :=
  Real.exp (-((e - ept) / width) ^ 2) / (width * Real.sqrt Real.pi)

/-- `BR_h0`, `tools/broaden/broaden.hpp:463-466`.  At `x = 0` the code computes
`log 0 = -∞`, whose square is `∞`, and `exp (-∞) = 0`. -/
noncomputable def brH0 (alpha omega0 x : ℝ) : ℝ :=
  if omega0 < |x| then 1
  else if x = 0 then 0
  else Real.exp (-(Real.log (|x| / omega0) / alpha) ^ 2)

/-- `BR_h`, `tools/broaden/broaden.hpp:471-473`. -/
noncomputable def brH (S : Settings) (e ept : ℝ) : ℝ :=
  if S.normalization then brH0 S.alpha S.omega0 ept else brH0 S.alpha S.omega0 e

/-- `bfnc`: the value at output energy `e` of a broadened unit peak at `ept`;
`tools/broaden/broaden.hpp:477-487`. -/
noncomputable def bfnc (S : Settings) (e ept : ℝ) : ℝ :=
  if S.gaussian then brG S.alpha e ept
  else
    let part_l := brL S.alpha S.accumulation e ept
    let part_g := brG S.omega0 e ept
    let h := brH S e ept
    part_l * h + part_g * (1 - h)

/-- One value of the broadened spectrum, the inner sum of `broaden`,
`tools/broaden/broaden.hpp:493-496`; `peaks` are the pairs of `vfreq`, `vspec`. -/
noncomputable def broadenAt (S : Settings) (peaks : List (ℝ × ℝ)) (m : ℝ) : ℝ :=
  (peaks.map fun p => p.2 * bfnc S m p.1).sum

/-- `broaden`, `tools/broaden/broaden.hpp:489-497`. -/
noncomputable def broaden (S : Settings) (peaks : List (ℝ × ℝ)) (mesh : List ℝ) : List ℝ :=
  mesh.map (broadenAt S peaks)

/-- `BR_NEW`, the kernel of the main program, `c++/spectral.hpp:59-71`.  The case `e = 0` as
in `brH0`. -/
noncomputable def brNew (alpha omega0 e ept : ℝ) : ℝ :=
  let part_l := logGauss alpha e ept
  if omega0 < |e| then part_l
  else
    let h := if e = 0 then 0 else Real.exp (-(Real.log (|e| / omega0) / alpha) ^ 2)
    part_l * h + brG omega0 e ept * (1 - h)

/-- `gaussian_kernel`, `tools/broaden/broaden.hpp:46-49`. -/
noncomputable def gaussianKernel (x y sigma : ℝ) : ℝ :=
  let d := (x - y) / sigma
  1 / Real.sqrt (2 * Real.pi) * Real.exp (-d * d / 2) / sigma

/-- `derfd_kernel`, `tools/broaden/broaden.hpp:52-55`. -/
noncomputable def derfdKernel (x y sigma : ℝ) : ℝ :=
  let d := (x - y) / sigma
  1 / ((1 + Real.cosh d) * 2 * sigma)

/-- `convolve`, `tools/broaden/broaden.hpp:57-85`, with `cutoff_ratio = 100`; the first and
the last value are kept.  `mesh` and `a` have the same length (as at both calls,
`tools/broaden/broaden.hpp:542-543`). -/
noncomputable def convolve (kernel : ℝ → ℝ → ℝ → ℝ) (sigma : ℝ) (mesh a : List ℝ) : List ℝ :=
  (List.range mesh.length).map fun i : ℕ =>
    let x := mesh.getD i 0
    if i = 0 ∨ i = mesh.length - 1 then a.getD i 0
    else if |x| < 100 * sigma then
      ((List.range' 1 (mesh.length - 2)).map fun j : ℕ =>
        let y := mesh.getD j 0
        let width := (mesh.getD (j + 1) 0 + mesh.getD j 0) / 2 - (mesh.getD (j - 1) 0 + mesh.getD j 0) / 2
        a.getD j 0 * (kernel x y sigma * width)).sum
    else a.getD i 0

/-- `trapez`, `tools/broaden/broaden.hpp:100-109`. -/
noncomputable def trapez (x y : List ℝ) : ℝ :=
  ((List.range' 1 (x.length - 1)).map fun i : ℕ =>
    (y.getD (i - 1) 0 + y.getD i 0) / 2 * (x.getD i 0 - x.getD (i - 1) 0)).sum

/-- The seven numbers printed with option `-s`, `tools/broaden/broaden.hpp:389-420`. -/
structure Sums where
  sum : ℝ
  pos : ℝ
  neg : ℝ
  fermi : ℝ
  bose : ℝ
  fermiInv : ℝ
  boseInv : ℝ

/-- One step of the loop of `integrals_for_sumrules`, `tools/broaden/broaden.hpp:398-412`.
`1 - exp(∓ω/T)` is zero exactly for `ω = 0`; the quotient is then infinite and the term is
left out (`isfinite`). -/
noncomputable def sumStep (T : ℝ) (s : Sums) (p : ℝ × ℝ) : Sums :=
  let omega := p.1
  let w := p.2
  { sum := s.sum + w
    pos := if 0 < omega then s.pos + w else s.pos
    neg := if omega < 0 then s.neg + w else s.neg
    fermi := s.fermi + 1 / (1 + Real.exp (-omega / T)) * w
    bose := if omega = 0 then s.bose else s.bose + 1 / (1 - Real.exp (-omega / T)) * w
    fermiInv := s.fermiInv + 1 / (1 + Real.exp (omega / T)) * w
    boseInv := if omega = 0 then s.boseInv else s.boseInv + 1 / (1 - Real.exp (omega / T)) * w }

/-- `integrals_for_sumrules`, `tools/broaden/broaden.hpp:389-420`. -/
noncomputable def sumrules (T : ℝ) (peaks : List (ℝ × ℝ)) : Sums :=
  peaks.foldl (sumStep T) ⟨0, 0, 0, 0, 0, 0, 0⟩

end Verif.Broad
