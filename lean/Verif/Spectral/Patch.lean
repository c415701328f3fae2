import Verif.Spectral.Bins
import Mathlib.Analysis.Complex.Trigonometric
import Mathlib.Analysis.Real.Sqrt
/-!
# Patching of the spectra of successive steps
(`c++/spectrum.hpp:82-86,96-132`, `c++/step.hpp:30-33,52-66`, `c++/params.hpp:714-753`)
-/

namespace Verif.Spectral

/-- The parameters used in patching. -/
structure PatchP where
  Lambda : ℝ
  goodE : ℝ
  NNtanh : ℝ
  z : ℝ
  /-- The factor that depends on the discretisation scheme, times `bandrescale`,
  `c++/params.hpp:715-721,726`. -/
  pref : ℝ
  channels : ℕ
  Ninit : ℕ
  Nmax : ℕ
  NN1 : Bool
  NN2avg : Bool
  NN2even : Bool
  substeps : Bool
  absolute : Bool

/-- `SCALE`, `c++/params.hpp:714-728`. -/
noncomputable def SCALE (P : PatchP) (N : ℕ) : ℝ :=
  if !P.substeps then P.pref * P.Lambda ^ (-((N : ℝ) - 1) / 2 + 1 - P.z)
  else P.pref * P.Lambda ^ (-(N : ℝ) / (2 * P.channels) + 3 / 2 - P.z)

/-- `Step::scale`, `c++/step.hpp:30-33`, at the step with index `N`. -/
noncomputable def stepScale (P : PatchP) (N : ℕ) : ℝ := if P.absolute then 1 else SCALE P (N + 1)

/-- `getEfactor`, `c++/params.hpp:744-746`. -/
noncomputable def Efactor (P : PatchP) : ℝ :=
  if P.channels = 1 ∧ P.NN1 = false then P.Lambda else Real.sqrt P.Lambda

/-- `N_for_merging`, `c++/step.hpp:52-56`. -/
def forMerging (P : PatchP) (N : ℕ) : Bool :=
  if P.NN1 then true else if P.NN2avg then true else if P.NN2even then N % 2 == 0 else N % 2 == 1

/-- `Emin`, `Ex` and `Emax` in `mergeNN2half`, `c++/spectrum.hpp:120-122`, with
`c++/params.hpp:750-753`. -/
noncomputable def winMin (P : PatchP) (N : ℕ) : ℝ := stepScale P N * P.goodE
@[inherit_doc winMin] noncomputable def winPeak (P : PatchP) (N : ℕ) : ℝ := stepScale P N * (P.goodE * Efactor P)
@[inherit_doc winMin] noncomputable def winMax (P : PatchP) (N : ℕ) : ℝ := stepScale P N * (P.goodE * Efactor P ^ 2)

/-- `fnc_tanh_0`, `fnc_tanh` and `fnc`, `c++/spectrum.hpp:101-109`. -/
noncomputable def winFnc (NNtanh x : ℝ) : ℝ :=
  if NNtanh > 0 then
    let f := fun x : ℝ => Real.tanh (NNtanh * (x - 1 / 2))
    (f x - f 0) / (f 1 - f 0)
  else x

/-- `windowfunction`, `c++/spectrum.hpp:96-113`; `none` is the place marked as not
reached. -/
noncomputable def windowFunction (NNtanh : ℝ) (first last : Bool) (E Emin Ex Emax : ℝ) : Option ℝ :=
  if E ≤ Ex ∧ last then some 1
  else if E ≥ Ex ∧ first then some 1
  else if E ≤ Emin ∨ E ≥ Emax then some 0
  else if Emin < E ∧ E ≤ Ex then some (winFnc NNtanh ((E - Emin) / (Ex - Emin)))
  else if Ex < E ∧ E < Emax then some (1 - winFnc NNtanh ((E - Ex) / (Emax - Ex)))
  else none

/-- The factor with which the weight at energy `E` found at step `N` enters the full
spectrum, `c++/spectrum.hpp:124-131` (only steps with `N_for_merging`,
`c++/spectrum.hpp:83`).  (`weight != 0` does not matter for the result.) -/
noncomputable def patchFactor (P : PatchP) (N : ℕ) (E : ℝ) : ℝ :=
  if forMerging P N then
    if winMin P N < E ∧ E < winMax P N then
      (if P.NN2avg then 1 / 2 else 1) *
        (windowFunction P.NNtanh (N == P.Ninit) (N == P.Nmax - 1) E (winMin P N) (winPeak P N) (winMax P N)).getD 0
    else 0
  else 0

/-- `mergeNN2half` for one step, `c++/spectrum.hpp:119-132`. -/
noncomputable def mergeNN2half (P : PatchP) (N : ℕ) (full cs : Spikes) : Spikes :=
  List.zipWith (fun f c => (f.1, f.2 + (patchFactor P N c.1 : ℂ) * c.2)) full cs

/-- The calls at the ends of all steps. -/
noncomputable def patchAll (P : PatchP) (cs : ℕ → Spikes) (full : Spikes) : Spikes :=
  (List.range' P.Ninit (P.Nmax - P.Ninit)).foldl (fun f N => mergeNN2half P N f (cs N)) full

/-- `make_mesh`, `c++/spectrum.hpp:177-192`: the checks and the loop, as a big-step
relation. -/
inductive DivLoop (min ratio : ℝ) : ℝ → List ℝ → Prop
  | stop (E) : ¬ E > min → DivLoop min ratio E []
  | step (E l) : E > min → DivLoop min ratio (E / ratio) l → DivLoop min ratio E (E :: l)

@[inherit_doc DivLoop] inductive MakeMesh (max min ratio : ℝ) : Option (List ℝ) → Prop
  | bad : (ratio ≤ 1 ∨ max ≤ 0 ∨ min ≤ 0 ∨ min ≥ max) → MakeMesh max min ratio none
  | ok (l) : ¬ (ratio ≤ 1 ∨ max ≤ 0 ∨ min ≤ 0 ∨ min ≥ max) → DivLoop min ratio max l → MakeMesh max min ratio (some l)

/-- `get_broaden_min`, `c++/params.hpp:739`. -/
noncomputable def broadenMin (broadenMin ratio lastScale : ℝ) : ℝ :=
  if broadenMin ≤ 0 then ratio * lastScale else broadenMin

/-- `Temp::add_value`, `c++/bins.hpp:200-209`. -/
noncomputable def addValue : Spikes → ℝ → ℂ → Spikes
  | [], e, w => [(e, w)]
  | (e1, w1) :: l, e, w => by
    classical exact if e1 = e then (e1, w1 + w) :: l else (e1, w1) :: addValue l e w

/-- `gf_type`, `c++/matsubara.hpp:12`. -/
inductive GfType | bosonic | fermionic
  deriving DecidableEq, Repr

/-- `gf_sign`, `c++/matsubara.hpp:15-17`. -/
def gfSign : GfType → ℤ
  | .bosonic => 1
  | .fermionic => -1

/-- `ww`, `c++/matsubara.hpp:19-27`. -/
noncomputable def ww (n : ℕ) (gt : GfType) (T : ℝ) : ℝ := match gt with
  | .bosonic => T * Real.pi * (2 * n)
  | .fermionic => T * Real.pi * (2 * n + 1)

/-- The constructor of `Matsubara`, `c++/matsubara.hpp:41-44`. -/
noncomputable def matsNew (mats : ℕ) (gt : GfType) (T : ℝ) : Spikes :=
  (List.range mats).map fun n : ℕ => (ww n gt T, 0)

open Classical in
/-- `Matsubara::merge`, `c++/matsubara.hpp:46-52`. -/
noncomputable def matsMerge (v m : Spikes) : Option Spikes :=
  if v.length = m.length then
    (List.zip v m).mapM fun x => if x.1.1 = x.2.1 then some (x.1.1, x.1.2 + x.2.2) else none
  else none

end Verif.Spectral
