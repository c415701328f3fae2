import Verif.Trunc.Model
import Mathlib.Algebra.Order.Field.Rat
import Mathlib.Data.Rat.Floor
/-!
# Partial diagonalisation and the retry loop (`c++/core.hpp:177-203`, `c++/diag.hpp`)
-/

namespace Verif.Trunc

/-- The number of eigenpairs requested from LAPACK for a matrix of dimension
`dim` (`c++/diag.hpp:328-334` for `dsyevr`; the same lines in `zheevr`). -/
def nrEigenpairs (ratio : ℚ) (dim : ℕ) : ℤ :=
  if ratio ≠ 1 then
    let m := ⌈ratio * dim⌉
    if m < 1 then 1 else if (dim : ℤ) < m then dim else m
  else dim

/-- What one attempt delivers at a given ratio: the costs of the computed
states in every subspace (or an error). -/
abbrev Diagonaliser := ℚ → List (Sub ℚ)

/-- Result of the loop: the last attempted ratio and what `truncate_prepare`
left behind. -/
structure LoopResult where
  ratio : ℚ
  prepared : Except Err (Prepared ℚ)

/-- `do_diag` (`c++/core.hpp:177-203`): at most `fuel` attempts; `none` means
that the loop is still running. `restart` is `step.nrg() && P.restart`. An
exception other than `NotEnough` leaves the loop. -/
def doDiag (d : Diagonaliser) (s : Settings ℚ) (lastAll restart : Bool) (factor : ℚ) :
    Nat → ℚ → Option LoopResult
  | 0, _ => none
  | fuel + 1, ratio =>
    match truncatePrepare s lastAll (d ratio) with
    | .error e => some ⟨ratio, .error e⟩
    | .ok p =>
      if p.notEnough then
        if !restart then some ⟨ratio, .ok p⟩
        else doDiag d s lastAll restart factor fuel (min (ratio * factor) 1)
      else some ⟨ratio, .ok p⟩

/-- `initial_diagratio_for_step` (`c++/core.hpp:171-173`). -/
def initialRatio (lastAll : Bool) (diagratio : ℚ) : ℚ := if lastAll then 1 else diagratio

end Verif.Trunc
