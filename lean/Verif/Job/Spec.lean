import Verif.Job.Model
/-!
# What a user expects of a parallel job

The reference is the serial program: one loop over the subspaces in every call of `diagonalisations` (`Verif.Sched.serial`).
-/

namespace Verif.Job
open Verif.Invar (Label)
open Verif.Sched

variable {R DP : Type} (dg : DP → Mem R → Raw R)

/-- `hist` are the results of the first calls of `diagonalisations` in the serial program: the `k`-th one is that of the serial loop with the parameters, subspaces
and Hamiltonians that follow from the results before. -/
def IsHist (plan : List (List (Label × Raw R)) → Option (Round R DP)) (hist : List (List (Label × Raw R))) : Prop :=
  ∀ (k : Nat) (d : List (Label × Raw R)), hist[k]? = some d →
    ∃ r, plan (hist.take k) = some r ∧ d = serial (fun I => dg r.dp (r.ham I)) r.tasks

/-- `hist` are the results of the complete calculation in the serial program. -/
def IsComplete (plan : List (List (Label × Raw R)) → Option (Round R DP)) (hist : List (List (Label × Raw R))) : Prop :=
  IsHist dg plan hist ∧ plan hist = none

/-- All processes have returned `e` from `main`, and no message is left in any channel. -/
def Over (n : Nat) (s : Sys R DP) (e : Nat) : Prop :=
  s.m.ph = .ended e ∧ ∀ i, 1 ≤ i → i ≤ n → s.c i = ⟨.ended e, [], [], []⟩

end Verif.Job
