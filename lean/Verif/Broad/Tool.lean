import Verif.Broad.Model
import Verif.Spectral.Patch
import Verif.Tools.Spectra
import Mathlib.Data.List.Sort
/-!
# From the raw spectrum to the broadened one: the main program and the tool

`c++/spectrum.hpp` writes the raw peaks (`savebins`) and the broadened spectrum
(`continuous`); `tools/broaden/broaden.hpp` broadens a file of raw peaks.  Files of numbers are
lists of numbers; the conversion to bytes and back is exact (`write`/`read` of `double`s).
-/

namespace Verif.Broad
open Verif.Spectral

/-- The row `savebins` writes for one peak, `c++/spectrum.hpp:158-163, 166-172`. -/
noncomputable def binRow (reim : Bool) (e : ℝ) (w : ℂ) : List ℝ :=
  if reim then [e, w.re, w.im] else [e, w.re]

open Classical in
/-- `savebins`, `c++/spectrum.hpp:153-174`: the rows in the order of the file; `none` is a
failed assertion (an energy that is not positive). -/
noncomputable def savebins (reim : Bool) (pos neg : Spikes) : Option (List (List ℝ)) :=
  if (∀ p ∈ pos, 0 < p.1) ∧ (∀ p ∈ neg, -p.1 < 0) then
    some (pos.map (fun p => binRow reim p.1 p.2) ++ neg.map fun p => binRow reim (-p.1) p.2)
  else none

/-- `valpos` (for `m = E`) and `valneg` (for `m = -E`) of `continuous`,
`c++/spectrum.hpp:206-216`; the order of the two loops is the same for both. -/
noncomputable def density (alpha omega0 : ℝ) (pos neg : Spikes) (m : ℝ) : ℂ :=
  (pos.map fun p => p.2 * (brNew alpha omega0 m p.1 : ℂ)).sum +
    (neg.map fun p => p.2 * (brNew alpha omega0 m (-p.1) : ℂ)).sum

open Classical in
/-- `continuous`, `c++/spectrum.hpp:194-227`: the pairs in the order in which they are written;
`mesh` is the result of `make_mesh`.  `none`: the errors for `alpha` and `omega0` and the
assertions. -/
noncomputable def continuousOut (alpha omega0 : ℝ) (pos neg : Spikes) (mesh : List ℝ) : Option Spikes :=
  if alpha ≤ 0 ∨ omega0 ≤ 0 then none
  else if mesh ≠ [] ∧ ¬((∀ p ∈ pos, 0 < p.1) ∧ ∀ p ∈ neg, 0 < p.1) then none
  else
    some ((mesh.map fun E => (-E, density alpha omega0 pos neg (-E))).insertionSort (fun a b => a.1 ≤ b.1) ++
      (mesh.map fun E => (E, density alpha omega0 pos neg E)).insertionSort fun a b => a.1 ≤ b.1)

/-- `make_mesh` of the tool for the values `zs` its loop runs through,
`tools/broaden/broaden.hpp:112-125`. -/
noncomputable def toolMesh (max a : ℝ) (addPositive addNegative : Bool) (zs : List ℝ) : List ℝ :=
  (zs.flatMap fun z =>
    let x := a + z * ((max - a) / max)
    (if addPositive then [x] else []) ++ (if addNegative then [-x] else [])).insertionSort (· ≤ ·)

/-- The main sequence of the tool without the final passes, `tools/broaden/broaden.hpp:530-545`:
files (as lists of numbers), the selected column, the filter, the mesh. -/
noncomputable def toolRun (S : Settings) (nrcol col : ℕ) (low high : ℝ) (keepPos keepNeg : Bool)
    (files : List (List ℝ)) (mesh : List ℝ) : Option (List (ℝ × ℝ)) := do
  let bufs ← files.mapM (Tools.loadRows nrcol)
  let peaks := Tools.filterSpec low high keepPos keepNeg (Tools.mergeFiles (bufs.map (Tools.points nrcol col)))
  some (List.zip mesh (broaden S peaks mesh))

/-- `moment`, `c++/spectral.hpp:74-79`. -/
noncomputable def spikesMoment (neg pos : Spikes) (k : ℕ) : ℂ :=
  (pos.map fun p => p.2 * (p.1 : ℂ) ^ k).sum + (neg.map fun p => p.2 * (-p.1 : ℂ) ^ k).sum

end Verif.Broad
