import Mathlib.Analysis.SpecialFunctions.Pow.Real
/-!
# Switches, coefficient tables, energy scales, steps and the order of the stages
-/

namespace Verif.Config

/-! ## Switches -/

/-- First or second sweep (`c++/params.hpp:33`). -/
inductive Run
  | nrg
  | dmnrg
  deriving DecidableEq

/-- The switches that select calculations (`c++/params.hpp:247-280, 326, 484-494`).
`keptStrategy` is `strategy == "kept"`. -/
structure Sw where
  finite : Bool
  finitemats : Bool
  dmnrg : Bool
  dmnrgmats : Bool
  cfs : Bool
  cfsgt : Bool
  cfsls : Bool
  fdm : Bool
  fdmgt : Bool
  fdmls : Bool
  fdmmats : Bool
  fdmexpv : Bool
  dm : Bool
  lastall : Bool
  lastalloverride : Bool
  keptStrategy : Bool
  done : Bool
  removefiles : Bool
  calc0 : Bool

/-- `c++/params.hpp:590`. -/
def Sw.cfsFlags (s : Sw) : Bool := s.cfs || s.cfsgt || s.cfsls
/-- `c++/params.hpp:591`. -/
def Sw.fdmFlags (s : Sw) : Bool := s.fdm || s.fdmgt || s.fdmls || s.fdmmats || s.fdmexpv
/-- `c++/params.hpp:592`. -/
def Sw.dmnrgFlags (s : Sw) : Bool := s.dmnrg || s.dmnrgmats
/-- `c++/params.hpp:593`. -/
def Sw.cfsOrFdmFlags (s : Sw) : Bool := s.cfsFlags || s.fdmFlags
/-- `c++/params.hpp:594`. -/
def Sw.dmFlags (s : Sw) : Bool := s.cfsFlags || s.fdmFlags || s.dmnrgFlags
/-- `c++/params.hpp:595`. -/
def Sw.keepAllLast (s : Sw) : Bool := s.lastall || (s.cfsOrFdmFlags && !s.lastalloverride)
/-- `c++/params.hpp:596`. -/
def Sw.needRho (s : Sw) : Bool := s.cfsFlags || s.dmnrgFlags
/-- `c++/params.hpp:597`. -/
def Sw.needRhoFDM (s : Sw) : Bool := s.fdmFlags
/-- `c++/params.hpp:598-600`. -/
def Sw.recalcKept (s : Sw) (r : Run) : Bool := s.keptStrategy && !(s.cfsOrFdmFlags && decide (r = .dmnrg))
/-- `c++/params.hpp:601-603`. -/
def Sw.recalcAll (s : Sw) (r : Run) : Bool := !s.recalcKept r

/-- The switch part of `Params::validate` (`c++/params.hpp:626`):
`if (dm_flags()) dm = true`. -/
def Sw.validate (s : Sw) : Sw := if s.dmFlags then { s with dm := true } else s

/-- Spectral-function algorithms. -/
inductive Algo
  | FT | FTmats | DMNRG | DMNRGmats | CFS | CFSgt | CFSls | FDM | FDMgt | FDMls | FDMmats
  deriving DecidableEq

/-- Which algorithms `prepare_spec` sets up in which sweep
(`c++/oprecalc.hpp:146-161`). -/
def enabled (s : Sw) : Run → Algo → Bool
  | .nrg, .FT => s.finite
  | .nrg, .FTmats => s.finitemats
  | .dmnrg, .DMNRG => s.dmnrg
  | .dmnrg, .DMNRGmats => s.dmnrgmats
  | .dmnrg, .CFS => s.cfs
  | .dmnrg, .CFSgt => s.cfsgt
  | .dmnrg, .CFSls => s.cfsls
  | .dmnrg, .FDM => s.fdm
  | .dmnrg, .FDMgt => s.fdmgt
  | .dmnrg, .FDMls => s.fdmls
  | .dmnrg, .FDMmats => s.fdmmats
  | _, _ => false

/-- Kinds of stored data. -/
inductive Kind
  | unitary | rho | rhoFDM
  deriving DecidableEq

/-- `Algo::rho_type` (`c++/algo_DMNRG.hpp:68,127`, `c++/algo_CFS.hpp:62,114,143`,
`c++/algo_FDM.hpp:62,111,184,298`; default `c++/algo.hpp:34`). -/
def Algo.rho : Algo → Option Kind
  | .FT | .FTmats => none
  | .DMNRG | .DMNRGmats | .CFS | .CFSgt | .CFSls => some .rho
  | .FDM | .FDMgt | .FDMls | .FDMmats => some .rhoFDM

/-- Algorithms that use discarded states: `_CFS` and `_FDM` families. -/
def Algo.usesDiscarded : Algo → Bool
  | .CFS | .CFSgt | .CFSls | .FDM | .FDMgt | .FDMls | .FDMmats => true
  | _ => false

/-! ## Coefficient tables -/

/-- `coeffactor` and `coefchannels` (`c++/params.hpp:567-573`). -/
def coefFactor (pol2x2 polarized : Bool) : Nat := if pol2x2 then 4 else if polarized then 2 else 1

def coefChannels (pol2x2 polarized : Bool) (channels : Nat) : Nat := coefFactor pol2x2 polarized * channels

/-- Spin structures of a coefficient. -/
inductive SpinPart
  | up | down | updo | doup
  deriving DecidableEq

/-- Column used by `xiUP`, `xiDOWN`, `xiUPDO`, `xiDOUP` (and `zeta…`)
(`c++/coef.hpp:153-164`). -/
def column (channels ch : Nat) : SpinPart → Nat
  | .up => ch
  | .down => ch + channels
  | .updo => ch + 2 * channels
  | .doup => ch + 3 * channels

/-- The spin parts a calculation may use. -/
def spinParts (pol2x2 polarized : Bool) : List SpinPart :=
  if pol2x2 then [.up, .down, .updo, .doup] else if polarized then [.up, .down] else [.up]

/-- `coef_table` (`c++/coef.hpp:14-38, 25-28`): `coef` asserts the index is inside. -/
def coefAt {K : Type} (table : List K) (n : Nat) : Option K := table[n]?

/-- `coef_table::set` (`c++/coef.hpp:34-37`): grows the table with zeros. -/
def coefSet {K : Type} [Zero K] (table : List K) (n : Nat) (v : K) : List K :=
  (table ++ List.replicate (n + 1 - table.length) 0).set n v

/-- `set_of_coef_tables::operator()` (`c++/coef.hpp:100-103`); `none` is a failed assertion. -/
def tablesAt {K : Type} (tabs : List (List K)) (n alpha : Nat) : Option K := tabs[alpha]?.bind fun t => coefAt t n

/-- `set_of_coef_tables::set` (`c++/coef.hpp:108-111`). -/
def tablesSet {K : Type} [Zero K] (tabs : List (List K)) (n alpha : Nat) (v : K) : Option (List (List K)) :=
  tabs[alpha]?.map fun t => tabs.set alpha (coefSet t n v)

/-! ## Energy scales -/

/-- Parameters of the energy scale. `campo` is `discretization ∈ {"C","Z"}`
(otherwise "Y"; other values are rejected, `c++/params.hpp:635-637`). -/
structure ScaleP where
  Lambda : ℝ
  z : ℝ
  bandrescale : ℝ
  channels : Nat
  substeps : Bool
  campo : Bool
  absolute : Bool

/-- The prefactor in `SCALE` (`c++/params.hpp:716-721`). -/
noncomputable def ScaleP.pref (p : ScaleP) : ℝ :=
  if p.campo then (1 - 1 / p.Lambda) / Real.log p.Lambda else 0.5 * (1 + 1 / p.Lambda)

/-- `Params::SCALE` (`c++/params.hpp:714-728`). -/
noncomputable def ScaleP.SCALE (p : ScaleP) (N : Int) : ℝ :=
  (if p.substeps then p.pref * p.Lambda ^ (-(N : ℝ) / (2 * p.channels) + 3 / 2 - p.z)
    else p.pref * p.Lambda ^ (-((N : ℝ) - 1) / 2 + 1 - p.z)) * p.bandrescale

/-- `Params::nrg_step_scale_factor` (`c++/params.hpp:733-735`). -/
noncomputable def ScaleP.stepFactor (p : ScaleP) : ℝ :=
  if p.absolute then 1 else if p.substeps then p.Lambda ^ (0.5 / (p.channels : ℝ)) else Real.sqrt p.Lambda

/-! ## Steps -/

/-- `Step` (`c++/step.hpp:13-27`): `trueN` may be negative, `ndx` is the array index. -/
structure StepS where
  trueN : Int
  ndx : Nat
  deriving DecidableEq

/-- `Step::set` (`c++/step.hpp:21-24`). -/
def StepS.set (n : Int) : StepS := ⟨n, (max n 0).toNat⟩

/-- `Step::next` (`c++/step.hpp:27`). -/
def StepS.next (s : StepS) : StepS := ⟨s.trueN + 1, s.ndx + 1⟩

/-- `Step::end` (`c++/step.hpp:66`). -/
def StepS.atEnd (nmax : Nat) (s : StepS) : Bool := nmax ≤ s.ndx

/-- `Step::first`, `Step::last` (`c++/step.hpp:57-65`). -/
def StepS.first (ninit : Nat) (s : StepS) : Bool := s.ndx == ninit
def StepS.last (nmax : Nat) (s : StepS) : Bool := s.ndx == nmax - 1

/-- The steps visited by the loop of `nrg_loop` from a given state
(`c++/core.hpp:334`); `fuel` bounds the number of turns. -/
def loopFrom (nmax : Nat) : Nat → StepS → List StepS
  | 0, _ => []
  | fuel + 1, s => if s.atEnd nmax then [] else s :: loopFrom nmax fuel s.next

/-- All steps visited: `step.init()`, then until `step.end()`. `nmax` turns are
always enough. -/
def visited (ninit nmax : Nat) : List StepS := loopFrom nmax nmax (StepS.set ninit)

/-- `Step::NM` (`c++/step.hpp:40-44`). -/
def NM (channels ndx : Nat) : Nat × Nat := (ndx / channels, ndx - ndx / channels * channels)

/-- `Step::energyscale`, `scale`, `unscale` (`c++/step.hpp:30-36`). -/
noncomputable def ScaleP.energyscale (p : ScaleP) (s : StepS) : ℝ := p.SCALE (s.trueN + 1)
noncomputable def ScaleP.scale (p : ScaleP) (s : StepS) : ℝ := if p.absolute then 1 else p.energyscale s
noncomputable def ScaleP.unscale (p : ScaleP) (s : StepS) : ℝ := if p.absolute then p.energyscale s else 1

/-! ## Stages and stored files -/

/-- What a run does, as far as stored files and the completion marker are
concerned. -/
inductive Ev
  /-- parameters, data file and set-up (`c++/nrg-general.hpp:195-207`) -/
  | setup
  /-- measurements before the first iteration (`c++/nrg-general.hpp:167-170`) -/
  | calc0
  /-- diagonalisation of one step in the first sweep -/
  | diagonalise (n : Nat)
  /-- recalculation and measurement of one step -/
  | measure (r : Run) (n : Nat)
  | save (k : Kind) (n : Nat)
  | load (k : Kind) (n : Nat)
  | remove (k : Kind) (n : Nat)
  /-- end of a sweep, results written (`c++/nrg-general.hpp:192`) -/
  | sweepEnd (r : Run)
  /-- the file `DONE` (`c++/nrg-general.hpp:216`) -/
  | done
  deriving DecidableEq

/-- `load(N, P, remove_files)` (`c++/eigen.hpp:599-620`, `c++/operators.hpp:123-146`). -/
def loadEv (rm : Bool) (k : Kind) (n : Nat) : List Ev := .load k n :: (if rm then [.remove k n] else [])

/-- `recalculate_and_measure` (`c++/core.hpp:265-271`, `c++/measurements.hpp:208-217`):
in the second sweep the density matrices of the step are loaded first. -/
def measureEv (s : Sw) (r : Run) (n : Nat) : List Ev :=
  (if r = .dmnrg then
    (if s.needRho then loadEv s.removefiles .rho n else []) ++
    (if s.needRhoFDM then loadEv s.removefiles .rhoFDM n else [])
   else []) ++ [.measure r n]

/-- One step: `do_diag`, `after_diag` (`c++/core.hpp:106-119, 273-300`), without
`resume`, one attempt. -/
def stepEv (s : Sw) (r : Run) (n : Nat) : List Ev :=
  (match r with
    | .nrg => .diagonalise n :: (if s.dm then [.save .unitary n] else [])
    | .dmnrg => loadEv s.removefiles .unitary n) ++
  (if s.recalcAll r then measureEv s r n else []) ++
  (if s.recalcKept r then measureEv s r n else [])

/-- `run_phase` (`c++/nrg-general.hpp:155-192`). -/
def sweepEv (s : Sw) (ninit nmax : Nat) (r : Run) : List Ev :=
  (if r = .nrg ∧ s.calc0 then [.calc0] else []) ++
  (visited ninit nmax).flatMap (fun st => stepEv s r st.ndx) ++ [.sweepEnd r]

/-- The indices `Nmax-1, …, Ninit+1` of the backward loops (`c++/dmnrg.hpp:245, 349`). -/
def backward (ninit nmax : Nat) : List Nat := (List.range' (ninit + 1) (nmax - 1 - ninit)).reverse

/-- `prepare_rho` with `calc_densitymatrix` (`c++/nrg-general.hpp:131-137`,
`c++/dmnrg.hpp:238-266`) and `prepare_rhoFDM` with `calc_fulldensitymatrix`
(`c++/nrg-general.hpp:139-149`, `c++/dmnrg.hpp:344-375`). -/
def prepareEv (k : Kind) (ninit nmax : Nat) : List Ev :=
  .save k (nmax - 1) :: (backward ninit nmax).flatMap fun n => [.load .unitary n, .save k (n - 1)]

/-- The constructor of `NRG_calculation` (`c++/nrg-general.hpp:195-217`); `s` are
the switches after validation. -/
def program (s : Sw) (ninit nmax : Nat) : List Ev :=
  .setup :: sweepEv s ninit nmax .nrg ++
  (if s.dm then
    (if s.needRho then prepareEv .rho ninit nmax else []) ++
    (if s.needRhoFDM then prepareEv .rhoFDM ninit nmax else []) ++
    sweepEv s ninit nmax .dmnrg
   else []) ++
  (if s.done then [.done] else [])

/-- Which files exist. -/
abbrev Files := Kind → Nat → Bool

/-- Effect of one action; `none` is a thrown exception (a file that does not
exist cannot be loaded or removed). -/
def act (fs : Files) : Ev → Option Files
  | .save k n => some fun k' n' => if k' = k ∧ n' = n then true else fs k' n'
  | .load k n => if fs k n then some fs else none
  | .remove k n => if fs k n then some (fun k' n' => if k' = k ∧ n' = n then false else fs k' n') else none
  | _ => some fs

/-- Run a program; `fails i` says that the `i`-th action throws for a reason of
its own. Returns the actions completed and, if nothing was thrown, the files at
the end. -/
def exec (fails : Nat → Bool) : Nat → Files → List Ev → List Ev × Option Files
  | _, fs, [] => ([], some fs)
  | i, fs, e :: es =>
    if fails i then ([], none)
    else match act fs e with
      | none => ([], none)
      | some fs' => let r := exec fails (i + 1) fs' es; (e :: r.1, r.2)

end Verif.Config
