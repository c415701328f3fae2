import Verif.Invar.Model
import Verif.Num.Model
/-!
# Energies, partition functions, thermodynamics
(`c++/eigen.hpp`, `c++/core.hpp`, `c++/stats.hpp`, `c++/store.hpp`,
`c++/measurements.hpp`, `c++/dmnrg.hpp:140-158`)

Exact arithmetic.  The GMP accumulators (`my_mpf`) and `double` are both exact
numbers here.  The Floquet variant (`P.floquet`) is not modelled.
-/

namespace Verif.Thermo
open Verif.Invar

/-- `Values`, `c++/eigen.hpp:68-80`: raw eigenvalues, scale, shift, `T_shift`,
`abs_GS_energy` and the corrected eigenvalues.  The four numbers start as NaN in
the code; here they start as arbitrary numbers (every theorem holds for all of
them, so no uninitialised value is ever used). -/
structure Values (K : Type) where
  v : List K
  scale : K
  shift : K
  tShift : K
  absGS : K
  deriving DecidableEq, Repr

namespace Values
variable {K : Type} [Field K]

/-- `rel`, `c++/eigen.hpp:88`.  Reading outside of the vector is undefined
behaviour; here it gives 0 and the theorems require `i` in range. -/
def rel (x : Values K) (i : Nat) : K := x.v.getD i 0
/-- `abs_zero`, `c++/eigen.hpp:91`. -/
def absZero (x : Values K) (i : Nat) : K := (x.rel i - x.shift) * x.scale
/-- `abs_T`, `c++/eigen.hpp:92`. -/
def absT (x : Values K) (i : Nat) : K := x.absZero i + x.tShift
/-- `abs_G`, `c++/eigen.hpp:93`. -/
def absG (x : Values K) (i : Nat) : K := x.absT i - x.absGS
/-- `lowest_rel`, `c++/eigen.hpp:96`; `front()` of an empty vector is undefined
behaviour: `none`. -/
def lowestRel (x : Values K) : Option K := x.v.head?
/-- `all_rel_zero`, `c++/eigen.hpp:107-110`. -/
def allRelZero (x : Values K) : List K := x.v.map (· - x.shift)

end Values

/-- `DiagInfo` (`std::map<Invar, Eigen>`) restricted to the eigenvalues. -/
abbrev Diag (K : Type) := List (Label × Values K)

section Sweep
variable {K : Type} [Field K] [LinearOrder K]

/-- Smallest element of a list (`ranges::min_element` and dereference); the end
iterator must not be dereferenced: `none`. -/
def minOf : List K → Option K
  | [] => none
  | x :: xs => some (xs.foldl min x)

/-- `find_Egs`, `c++/eigen.hpp:481-484`. -/
def findEgs (d : Diag K) : Option K := do
  let ls ← d.mapM fun e => e.2.lowestRel
  minOf ls

/-- `set_shift_Egs`, `c++/eigen.hpp:393-395,489-491`. -/
def setShift (egs : K) (d : Diag K) : Diag K := d.map fun e => (e.1, { e.2 with shift := egs })

/-- `subtract_GS_energy`, `c++/eigen.hpp:401-403,496-498`. -/
def subtractGS (gs : K) (d : Diag K) : Diag K := d.map fun e => (e.1, { e.2 with absGS := gs })

/-- One step of the first sweep: `initialize_diag_energy_reference`
(`c++/core.hpp:121-128`, without Floquet), `Stats::update`
(`c++/stats.hpp:68-75`) and `finalize_nrg_iteration_metadata`
(`c++/core.hpp:231-238`).  `total` is `stats.total_energy`. -/
def nrgStep (total scale : K) (d : Diag K) : Option (K × Diag K) := do
  let egs ← findEgs d
  let total' := total + egs * scale
  pure (total', (setShift egs d).map fun e => (e.1, { e.2 with scale := scale, tShift := total' }))

/-- The first sweep over all steps (`c++/core.hpp:333-340`), collecting the
stored spectra (`archive_iteration_state`, `c++/core.hpp:252-263`). -/
def firstSweep (total : K) : List (K × Diag K) → Option (K × List (Diag K))
  | [] => some (total, [])
  | s :: ss => do
    let r ← nrgStep total s.1 s.2
    let rest ← firstSweep r.1 ss
    pure (rest.1, r.2 :: rest.2)

/-- End of the first sweep, `c++/nrg-general.hpp:177-179`:
`stats.GS_energy = stats.total_energy; store.shift_abs_energies(GS_energy)`
(`c++/store.hpp:81-85`).  The initial total energy is read from the input
(`c++/stats.hpp:60-62`). -/
def runNrg (E0 : K) (steps : List (K × Diag K)) : Option (K × List (Diag K)) := do
  let r ← firstSweep E0 steps
  pure (r.1, r.2.map (subtractGS r.1))

/-- Second sweep: the spectrum written in the first sweep (before
`shift_abs_energies`) is read back, `subtract_GS_energy(stats.GS_energy)` is
applied (`c++/core.hpp:114-116`) and the reference set again
(`c++/core.hpp:121-128`). -/
def secondSweepLoad (gs : K) (saved : Diag K) : Option (Diag K) := do
  let egs ← findEgs (subtractGS gs saved)
  pure (setShift egs (subtractGS gs saved))

end Sweep

/-! ### Stored spectra -/

/-- `ThermoSub`/`StoredEigen`, `c++/store.hpp:20-35`, `c++/eigen.hpp:438-457`. -/
structure Sub where
  label : Label
  vals : Values ℝ
  kept : Nat
  dim : Nat
  last : Bool

namespace Sub
/-- `min`, `c++/eigen.hpp:451`. -/
def min (s : Sub) : Nat := if s.last then 0 else s.kept
/-- `max`, `c++/eigen.hpp:452`. -/
def max (s : Sub) : Nat := s.dim
/-- `all`, `c++/eigen.hpp:453`: `boost::irange(min(), max())`. -/
def all (s : Sub) : List Nat := List.range' s.min (s.max - s.min)
end Sub

/-- `ThermoSubs`, `c++/store.hpp:37-46`. -/
abbrev Shell := List Sub

/-- What `calc_ZnD` leaves in `stats` (entries for `N` in `Nall()`, in order). -/
structure FdmStats where
  ZnDG : List ℝ
  ZnDN : List ℝ
  ZZG : ℝ
  wnfactor : List ℝ
  wn : List ℝ

/-- Sum over the discarded states of a shell (`c++/measurements.hpp:65-74`),
multiplicity included. -/
noncomputable def shellSum (mult : Label → Nat) (f : Sub → Nat → ℝ) (sh : Shell) : ℝ :=
  (sh.map fun s => (s.all.map fun i => (mult s.label : ℝ) * f s i).sum).sum

/-- `calc_ZnD`, `c++/measurements.hpp:59-101`.  The list `store` holds the
shells `Nbegin, …, Nend-1`, so `Nend - N - 1` is the number of shells after the
current one.  `none`: the assertion on the sum fails. -/
noncomputable def calcZnD (T : ℝ) (mult : Label → Nat) (combs : Nat) (store : List Shell) : Option FdmStats :=
  let ZnDG := store.map (shellSum mult fun s i => Real.exp (-(s.vals.absG i) / T))
  let ZnDN := store.map (shellSum mult fun s i => Real.exp (-(s.vals.absZero i) / T))
  let pows : List ℝ := (List.range store.length).map fun k => (combs : ℝ) ^ (store.length - k - 1)
  let ZZG := ((ZnDG.zip pows).map fun p => p.1 * p.2).sum
  let wnfactor := pows.map (· / ZZG)
  let wn := (wnfactor.zip ZnDG).map fun p => p.1 * p.2
  if Num.numEqual wn.sum 1 (1 / 10 ^ 12) then some ⟨ZnDG, ZnDN, ZZG, wnfactor, wn⟩ else none

/-- The threshold in `fdm_thermodynamics`, `c++/measurements.hpp:128`. -/
noncomputable def wnTol : ℝ := 1 / 10 ^ 16

/-- The results of `fdm_thermodynamics`. -/
structure FdmTD where
  Z : ℝ
  F : ℝ
  E : ℝ
  C : ℝ
  S : ℝ

/-- The weighted sum over states of `c++/measurements.hpp:127-142`. -/
noncomputable def fdmSum (T : ℝ) (mult : Label → Nat) (st : FdmStats) (store : List Shell) (f : ℝ → ℝ) : ℝ :=
  open Classical in
  ((store.zip (st.wn.zip st.ZnDN)).map fun p =>
    if p.2.1 > wnTol then
      shellSum mult (fun s i => p.2.1 * Real.exp (-(s.vals.absZero i) / T) / p.2.2 * f (s.vals.absT i)) p.1
    else 0).sum

/-- `fdm_thermodynamics`, `c++/measurements.hpp:117-149`. -/
noncomputable def fdmThermodynamics (T : ℝ) (mult : Label → Nat) (gs : ℝ) (st : FdmStats) (store : List Shell) : FdmTD :=
  let E := fdmSum T mult st store id
  let E2 := fdmSum T mult st store fun e => e * e
  let F := -Real.log st.ZZG * T + gs
  ⟨st.ZZG * Real.exp (-gs / T), F, E, (E2 - E * E) / T ^ 2, (E - F) / T⟩

/-! ### Conventional thermodynamics -/

/-- `Eigen::trace` and `DiagInfo::trace`, `c++/eigen.hpp:411-414,557-560`. -/
noncomputable def trace (mult : Label → Nat) (f : ℝ → ℝ) (factor : ℝ) (d : Diag ℝ) : ℝ :=
  (d.map fun e => (mult e.1 : ℝ) * (e.2.allRelZero.map fun x => f (factor * x) * Real.exp (-(factor * x))).sum).sum

/-- The columns written by `calculate_TD`, `c++/measurements.hpp:168-187`
(the symmetry-specific ones are modelled in `Verif.Spin`). -/
structure TD where
  Z : ℝ
  E : ℝ
  E2 : ℝ
  C : ℝ
  F : ℝ
  S : ℝ

/-- `calculate_TD`, `c++/measurements.hpp:168-187`. -/
noncomputable def calculateTD (mult : Label → Nat) (factor : ℝ) (d : Diag ℝ) : TD :=
  let Z := trace mult (fun _ => 1) factor d
  let E := trace mult (fun x => x) factor d
  let E2 := trace mult (fun x => x ^ 2) factor d
  ⟨Z, E / Z, E2 / Z, E2 / Z - (E / Z) ^ 2, -Real.log Z, E / Z + Real.log Z⟩

/-! ### Initial density matrix -/

/-- A subspace at the last step: label, corrected eigenvalues, number kept
(`getnrkept`) and number stored (`getnrstored`). -/
structure LastSub where
  label : Label
  corr : List ℝ
  kept : Nat
  stored : Nat

/-- `sum_of_exp` over `value_corr_kept`, `c++/numerics.hpp:232-236`,
`c++/eigen.hpp:372`. -/
noncomputable def sumOfExp (factor : ℝ) (l : List ℝ) : ℝ := (l.map fun x => Real.exp (-factor * x)).sum

/-- `grand_canonical_Z`, `c++/measurements.hpp:51-55`. -/
noncomputable def grandCanonicalZ (mult : Label → Nat) (factor : ℝ) (d : List LastSub) : ℝ :=
  (d.map fun s => (mult s.label : ℝ) * sumOfExp factor (s.corr.take s.kept)).sum

/-- The entry `(i,j)` of `rho[I]` in `init_rho`, `c++/dmnrg.hpp:140-158`:
`diagonal_exp(scT) / Z` with `diagonal_exp` of `c++/eigen.hpp:404-410`.  The
matrix is `stored × stored`. -/
noncomputable def initRho (mult : Label → Nat) (scT : ℝ) (d : List LastSub) (s : LastSub) (i j : Nat) : ℝ :=
  (if i = j then Real.exp (-(s.corr.getD i 0) * scT) else 0) / grandCanonicalZ mult scT d

end Verif.Thermo
