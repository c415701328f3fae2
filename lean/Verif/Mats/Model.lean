import Verif.Tools.Spectra
import Mathlib.Data.Complex.Basic
import Mathlib.Analysis.Real.Pi.Bounds
/-!
# The Matsubara tool

Model of `tools/mats/mats.cc` over the reals. Loading and merging of the binary files are those of
`Verif.Tools.Spectra`.
-/

namespace Verif.Mats

open Complex

/-- The parameters that are refused (`tools/mats/mats.cc:93-99`). -/
def paramsOK (Nz : Int) (T : ℝ) (nrmats : Int) : Prop := 1 ≤ Nz ∧ 0 < T ∧ 1 ≤ nrmats

/-- `omegan` (`tools/mats/mats.cc:201-206`); `particle_stat` is `'f'`, no option changes it. -/
noncomputable def omegan (T : ℝ) (n : ℕ) : ℝ := T * Real.pi * (2 * n + 1)

/-- `make_mesh`, `iomegan` (`tools/mats/mats.cc:209-214`). -/
noncomputable def mesh (T : ℝ) (nrmats : ℕ) : List ℂ := (List.range nrmats).map fun n : ℕ => (omegan T n : ℂ) * I

/-- One value of `compute` (`tools/mats/mats.cc:220-224`). -/
noncomputable def greens (s : List (ℝ × ℝ)) (z : ℂ) : ℂ := (s.map fun p => (p.2 : ℂ) / (z - p.1)).sum

/-- `save` (`tools/mats/mats.cc:232-247`): the imaginary part of the frequency, real and imaginary part of the function;
`none` is the failed assertion. -/
noncomputable def save (x y : List ℂ) : Option (List (ℝ × ℝ × ℝ)) :=
  if x.length ≠ y.length then none
  else (x.zip y).mapM fun p => if p.1.re = 0 then some (p.1.im, p.2.re, p.2.im) else none

/-- `main` (`tools/mats/mats.cc:249-260`) on the contents of the files; `none` for refused parameters, incomplete rows, or a failed
assertion. -/
noncomputable def main (nrcol col : ℕ) (T : ℝ) (nrmats : ℕ) (bufs : List (List ℝ)) : Option (List (ℝ × ℝ × ℝ)) :=
  match bufs.mapM (Tools.loadRows nrcol) with
  | none => none
  | some l =>
    let s := Tools.mergeFiles (l.map (Tools.points nrcol col))
    save (mesh T nrmats) ((mesh T nrmats).map (greens s))

end Verif.Mats
