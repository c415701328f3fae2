import Mathlib.Analysis.SpecialFunctions.Log.Base
import Mathlib.Analysis.SpecialFunctions.Pow.Real
import Mathlib.Analysis.Complex.Basic
/-!
# Binning of spectral peaks (`c++/bins.hpp`, `c++/spectrum.hpp:18-36,78-81`)

Energies are real numbers, weights complex numbers; exact arithmetic.  `none` is a
failed assertion or an exception.
-/

namespace Verif.Spectral

/-- `Spikes<S>`: `std::vector` of pairs (energy, weight). -/
abbrev Spikes := List (ℝ × ℂ)

/-- The parameters used by `Bins`: `discard_immediately`, `discard_trim`,
`accumulation`, `bins`, and `emin`, `emax`, `log10emin`, `log10emax` as they are
after `setlimits()`. -/
structure Grid where
  bins : ℕ
  emin : ℝ
  emax : ℝ
  log10emin : ℤ
  log10emax : ℤ
  accumulation : ℝ
  discardImmediately : ℝ
  discardTrim : ℝ

/-- `setlimits`, `c++/bins.hpp:62-71`, with the check on `bins` of `loggrid`,
`c++/bins.hpp:75`.  `emin0`, `emax0`: the parameters; `lo`, `hi`: the defaults
computed from the energy scales. -/
noncomputable def setLimits (bins : ℕ) (emin0 emax0 lo hi acc di dt : ℝ) : Option Grid :=
  if bins = 0 then none
  else
    let emax := if emax0 > 0 then emax0 else hi
    let emin := if emin0 > 0 then emin0 else lo
    if emin ≤ 0 ∨ emax ≤ 0 ∨ emin ≥ emax then none
    else some ⟨bins, emin, emax, ⌊Real.logb 10 emin⌋, ⌈Real.logb 10 emax⌉, acc, di, dt⟩

/-- `nrbins` in `loggrid_std`, `c++/bins.hpp:99`.  The limits are whole numbers,
so the conversion to `size_t` is exact. -/
def nrBins (g : Grid) : ℕ := ((g.log10emax - g.log10emin) * g.bins + 1).toNat

/-- The representative energy of bin `i`, `c++/bins.hpp:101`. -/
noncomputable def binEnergy (g : Grid) (i : ℕ) : ℝ := (10 : ℝ) ^ ((g.log10emin : ℝ) + (i : ℝ) / (g.bins : ℝ))

/-- `loggrid_std`, `c++/bins.hpp:98-102`. -/
noncomputable def loggridStd (g : Grid) : Spikes := (List.range (nrBins g)).map fun i : ℕ => (binEnergy g i, 0)

/-- The loop `for (e = emin; e <= emax; e *= ratio)` of `loggrid_acc`,
`c++/bins.hpp:88-89`, as a big-step relation: `UpLoop ratio emax f e l` says that
started at `e` the loop ends and appends the points `l`. -/
inductive UpLoop (ratio emax : ℝ) (f : ℝ → ℝ) : ℝ → List ℝ → Prop
  | stop (e) : ¬ e ≤ emax → UpLoop ratio emax f e []
  | step (e l) : e ≤ emax → UpLoop ratio emax f (e * ratio) l → UpLoop ratio emax f e (f e :: l)

/-- The loop `for (e = a; e > 0; e -= linstep)`, `c++/bins.hpp:90-91`. -/
inductive DownLoop (linstep : ℝ) : ℝ → List ℝ → Prop
  | stop (e) : ¬ e > 0 → DownLoop linstep e []
  | step (e l) : e > 0 → DownLoop linstep (e - linstep) l → DownLoop linstep e (e :: l)

/-- `loggrid_acc`, `c++/bins.hpp:84-95`: the grid with shifted accumulation point.
`dblMin` is the smallest positive normalised number. -/
inductive LoggridAcc (g : Grid) (linstep dblMin : ℝ) : Spikes → Prop
  | mk (up down : List ℝ) :
    UpLoop ((10 : ℝ) ^ (1 / (g.bins : ℝ))) g.emax
      (fun e => (g.emax - g.accumulation) / g.emax * e + g.accumulation) g.emin up →
    (if linstep > 0 then DownLoop linstep g.accumulation down else down = []) →
    LoggridAcc g linstep dblMin
      (((up ++ down ++ [dblMin]).mergeSort (fun x y => by classical exact decide (x ≤ y))).map fun e => (e, 0))

/-- `bins[i].second += w`. -/
noncomputable def addAt (b : Spikes) (i : ℕ) (w : ℂ) : Spikes := b.modify i fun p => (p.1, p.2 + w)

/-- `add_std`, `c++/bins.hpp:115-134`. -/
noncomputable def addStd (g : Grid) (b : Spikes) (energy : ℝ) (weight : ℂ) : Spikes :=
  if energy < g.emin then addAt b 0 weight
  else
    let x := (Real.logb 10 energy - g.log10emin) * g.bins
    let intPart := ⌊x⌋
    if intPart < 0 then addAt b 0 weight
    else if intPart.toNat ≥ b.length - 1 then addAt b (b.length - 1) weight
    else
      let rem := x - intPart
      addAt (addAt b intPart.toNat (((1 - rem : ℝ) : ℂ) * weight)) (intPart.toNat + 1) ((rem : ℂ) * weight)

/-- The loop of `add_acc`, `c++/bins.hpp:137-156`: the first interval containing
the energy gets the weight; none: the weight is dropped.  (The assertion
`e1 <= e2` holds on the sorted grid.) -/
noncomputable def addAcc : Spikes → ℝ → ℂ → Spikes
  | (e1, w1) :: (e2, w2) :: rest, energy, weight =>
    if e1 ≤ energy ∧ energy ≤ e2 then
      if e2 - e1 ≠ 0 then
        let reldist := (energy - e1) / (e2 - e1)
        (e1, w1 + ((1 - reldist : ℝ) : ℂ) * weight) :: (e2, w2 + (reldist : ℂ) * weight) :: rest
      else (e1, w1 + (1 / 2) * weight) :: (e2, w2 + (1 / 2) * weight) :: rest
    else (e1, w1) :: addAcc ((e2, w2) :: rest) energy weight
  | b, _, _ => b

/-- `Bins::add`, `c++/bins.hpp:106-112`. -/
noncomputable def addBins (g : Grid) (b : Spikes) (energy : ℝ) (weight : ℂ) : Spikes :=
  if ‖weight‖ < g.discardImmediately * energy then b
  else if g.accumulation > 0 then addAcc b energy weight
  else addStd g b energy weight

/-- `Bins::merge`, `c++/bins.hpp:161-169`. -/
noncomputable def mergeBins : Spikes → Spikes → Option Spikes
  | [], [] => some []
  | (e1, w1) :: b, (e2, w2) :: c => by
    classical exact if e1 = e2 then (mergeBins b c).map ((e1, w1 + w2) :: ·) else none
  | _, _ => none

/-- `Bins::trim`, `c++/bins.hpp:173-192` (without the warning).  The assertion on
increasing energies is `none`. -/
noncomputable def trimBins (dt : ℝ) : Spikes → Option Spikes
  | [] => none
  | [p] => some [p]
  | p :: q :: rest =>
    if q.1 ≥ p.1 then
      (trimBins dt (q :: rest)).map fun r => if ‖p.2‖ ≥ dt * (q.1 - p.1) then p :: r else r
    else none

/-- `Spikes::sum_weights`. -/
noncomputable def totalWeight (b : Spikes) : ℂ := (b.map Prod.snd).sum

/-- `ChainBinning`, `c++/spectrum.hpp:18-36`: bins for positive and for negative
frequencies. -/
structure Chain where
  spos : Spikes
  sneg : Spikes

/-- `ChainBinning::add`, `c++/spectrum.hpp:24-29`. -/
noncomputable def Chain.add (g : Grid) (c : Chain) (energy : ℝ) (weight : ℂ) : Chain :=
  if energy ≥ 0 then { c with spos := addBins g c.spos energy weight }
  else { c with sneg := addBins g c.sneg (-energy) weight }

/-- `ChainBinning::add` with a factor, `c++/spectrum.hpp:30-33`. -/
noncomputable def Chain.addPair (g : Grid) (c : Chain) (factor : ℂ) (p : ℝ × ℂ) : Chain := c.add g p.1 (factor * p.2)

/-- `total_weight`. -/
noncomputable def Chain.total (c : Chain) : ℂ := totalWeight c.spos + totalWeight c.sneg

/-- The constructor of `ChainBinning` (standard grid). -/
noncomputable def Chain.new (g : Grid) : Chain := ⟨loggridStd g, loggridStd g⟩

/-- `SpectrumRealFreq::mergeCFS`, `c++/spectrum.hpp:78-81`. -/
noncomputable def mergeCFS (full cs : Chain) : Option Chain := do
  let p ← mergeBins full.spos cs.spos
  let n ← mergeBins full.sneg cs.sneg
  pure ⟨p, n⟩

end Verif.Spectral
