import Verif.Dm.Fdm
import Verif.Ops.Model
import Verif.Spectral.Algo
/-!
# The second sweep: expectation values and spectral functions
(`c++/core.hpp:264-318`, `c++/measurements.hpp:33-44`, `c++/algo.hpp:57-74`, `c++/operators.hpp:46-52`,
`c++/symmetry.hpp:201-217`)

The option `project` is empty.  Exceptions, failed assertions and reads outside of a matrix
are `none`.
-/

namespace Verif.Sumrule
open Verif.Invar Verif.Symm Verif.Mat Verif.Dm

section
variable {K : Type} [Field K] [StarRing K]

/-- `recalc_singlet`, `c++/symmetry.hpp:201-217` (parity 1): all subspaces. -/
def recalcSinglet (S : Symmetry) (diag : DiagU K) (sub : List (Label × List ℕ)) (nold : Ops.Elements K) (singlet : Label) :
    Option (Ops.Elements K) := do
  let l ← diag.mapM fun p => do
    let m ← Ops.recalcSinglet1 S diag sub nold singlet p.1
    pure (m.toList.map fun M => ((p.1, p.1), M))
  pure l.flatten

/-- `MatrixElements::trim`, `c++/operators.hpp:46-52`.  `sizes`: the numbers of states left
after the truncation (`DiagInfo::dims`, `c++/eigen.hpp:533-545`). -/
def trimElements (sizes : Sizes) (O : Ops.Elements K) : Option (Ops.Elements K) :=
  O.mapM fun e => do
    let M ← trim e.2 (sizeSubspace sizes e.1.1) (sizeSubspace sizes e.1.2)
    pure (e.1, M)

/-- One subspace of `trace_fdm_kept`, `c++/measurements.hpp:36-41`. -/
def measureBlock (S : Symmetry) (store : BackShell) (n : Ops.Elements K) (p : Label × Mat K) : Option K := do
  let M ← n.lookup (p.1, p.1)
  let s ← store.lookup p.1
  if s.kept ≤ p.2.r ∧ s.kept ≤ p.2.c ∧ s.kept ≤ M.r ∧ s.kept ≤ M.c then
    pure (((mult S.fields p.1 : ℤ) : K) * traceContract p.2 M s.kept)
  else none

/-- `measure_singlet_fdm`, `c++/measurements.hpp:33-44`, for one operator. -/
def measureFdm (S : Symmetry) (store : BackShell) (rho : Rho K) (n : Ops.Elements K) : Option K := do
  let l ← rho.mapM (measureBlock S store n)
  pure l.sum

end

/-- What one step of the second sweep works with: the spectrum, the weight `stats.wnfactor`
and the two operators, on all states of the step. -/
structure SpecStep where
  shell : FShell ℂ
  wnf : ℝ
  A : Ops.Elements ℂ
  B : Ops.Elements ℂ

open Spectral in
/-- The part of `Eigen` the algorithms use (`diag.find(I)->second`). -/
noncomputable def eigD (d : Thermo.Sub) : EigD := ⟨d.dim, d.kept, d.last, d.vals.absG, d.vals.absZero⟩

/-- `diag.find(I)`. -/
def findSub (sh : Thermo.Shell) (I : Label) : Option Thermo.Sub := sh.find? fun d => decide (d.label = I)

/-- The arguments of `calc` shared by all spectra: the factor function, the check function
(with the spin already supplied), fermions or bosons, and the temperature. -/
structure SpecArgs where
  ff : Label → Label → ℂ
  cf : Label → Label → Bool
  gt : Spectral.GfType
  T : ℝ

/-- One block in the loop of `BaseSpectrum::calc`, `c++/algo.hpp:61-71`.  `ls`: the algorithm
is `FDMls`, which reads `rhoFDM.at(Ij)`; otherwise it is `FDMgt`, which reads
`rhoFDM.at(Ii)`. -/
noncomputable def specBlock (a : SpecArgs) (ls : Bool) (st : SpecStep) (rho : Rho ℂ) (e : (Label × Label) × Mat ℂ) :
    Option (List (ℝ × ℂ)) :=
  match st.B.lookup e.1 with
  | none => some []
  | some op2 =>
    if a.cf e.1.1 e.1.2 = false then some []
    else match findSub st.shell.thermo e.1.2, findSub st.shell.thermo e.1.1 with
      | some di, some dj =>
        if ls then do
          let ρ ← rho.lookup e.1.1
          Spectral.fdmLs ⟨eigD di, eigD dj, e.2, op2, a.ff e.1.2 e.1.1, empty, ρ, a.gt, a.T, st.wnf⟩
        else do
          let ρ ← rho.lookup e.1.2
          Spectral.fdmGt ⟨eigD di, eigD dj, e.2, op2, a.ff e.1.2 e.1.1, ρ, empty, a.gt, a.T, st.wnf⟩
      | _, _ => some []

/-- `BaseSpectrum::calc`, `c++/algo.hpp:57-74`: the delta peaks of one step. -/
noncomputable def specStep (a : SpecArgs) (ls : Bool) (st : SpecStep) (rho : Rho ℂ) : Option (List (ℝ × ℂ)) := do
  let l ← st.A.mapM (specBlock a ls st rho)
  pure l.flatten

/-- The steps of the second sweep with the density matrices saved for them.  The lists start
with the last step. -/
noncomputable def specRun (a : SpecArgs) (ls : Bool) (steps : List SpecStep) (rhos : List (Rho ℂ)) : Option (List (List (ℝ × ℂ))) :=
  (steps.zip rhos).mapM fun x => specStep a ls x.1 x.2

end Verif.Sumrule
