import Verif.Dm.Model
import Verif.Thermo.Model
import Mathlib.Analysis.RCLike.Basic
/-!
# Full density matrices (`c++/dmnrg.hpp:265-371`, `c++/nrg-general.hpp:140-150`)

Matrix elements are real or complex (`RCLike 𝕜`).  With `checkrho` the code
compares traces with the expected weights and aborts on a difference; in exact
arithmetic there is none (this is C27), so these checks are not modelled.
-/

namespace Verif.Dm
open Verif.Invar Verif.Symm Verif.Mat
variable {𝕜 : Type} [RCLike 𝕜]

/-- The data of one step: eigenvectors and block structure, the stored spectrum
(`store[N]`), and the weights `stats.wn[N]`, `stats.ZnDNd[N]`. -/
structure FShell (𝕜 : Type) extends Shell 𝕜 where
  thermo : Thermo.Shell
  wn : ℝ
  ZnDN : ℝ

/-- `init_rho_FDM`, `c++/dmnrg.hpp:275-292`. -/
noncomputable def initRhoFDM (T : ℝ) (s : FShell 𝕜) : Rho 𝕜 :=
  open Classical in
  s.thermo.map fun d => (d.label,
    ⟨d.max, d.max, fun i j =>
      if s.ZnDN ≠ 0 ∧ i = j ∧ i ∈ d.all then
        ((Real.exp (-(d.vals.absZero i) / T) * s.wn / s.ZnDN : ℝ) : 𝕜)
      else 0⟩)

/-- The loop of `calc_fulldensitymatrix`, `c++/dmnrg.hpp:344-371`; steps
`Nmax-1, …, Ninit` in this order. `last`: the current step is the last one
(`c++/step.hpp`, `step.last(N)`). -/
noncomputable def fdmSweep (S : Symmetry) (T : ℝ) (last : Bool) : List (FShell 𝕜) → Rho 𝕜 → Option (List (Rho 𝕜))
  | cur :: prev :: rest, rho => do
    let dd := if last then none else some (initRhoFDM T cur)
    let r ← fdmStep S prev.store cur.store cur.diag rho dd
    let rs ← fdmSweep S T false (prev :: rest) r
    pure (r :: rs)
  | _, _ => some []

/-- `prepare_rhoFDM`, `c++/nrg-general.hpp:140-150`: start from the last step. -/
noncomputable def fdmAll (S : Symmetry) (T : ℝ) (shells : List (FShell 𝕜)) : Option (List (Rho 𝕜)) :=
  match shells with
  | [] => some []
  | cur :: rest => fdmSweep S T true (cur :: rest) (initRhoFDM T cur)

end Verif.Dm
