import Verif.Thermo.Model
/-!
# Specification: canonical ensemble and the complete basis

Degenerate states are listed as often as they occur.
-/

namespace Verif.Thermo.Spec

/-- Partition function at temperature `T`. -/
noncomputable def Z (T : ℝ) (es : List ℝ) : ℝ := (es.map fun e => Real.exp (-e / T)).sum

/-- Probability of one state of energy `e`. -/
noncomputable def prob (T : ℝ) (es : List ℝ) (e : ℝ) : ℝ := Real.exp (-e / T) / Z T es

/-- Thermal average of a function of the energy. -/
noncomputable def mean (T : ℝ) (es : List ℝ) (f : ℝ → ℝ) : ℝ := (es.map fun e => prob T es e * f e).sum

/-- Variance of the energy. -/
noncomputable def variance (T : ℝ) (es : List ℝ) : ℝ :=
  mean T es fun e => (e - mean T es id) ^ 2

/-- Gibbs entropy `-Σ p log p`. -/
noncomputable def entropy (T : ℝ) (es : List ℝ) : ℝ :=
  -(es.map fun e => prob T es e * Real.log (prob T es e)).sum

end Verif.Thermo.Spec

namespace Verif.Thermo
open Verif.Invar

/-- Specification: the energies of the states of the complete basis that a shell
contributes.  Every discarded state (every state of a last shell) stands for
`mult` states, times `env` states of the sites not yet added. -/
noncomputable def physShell (mult : Label → Nat) (env : Nat) (sh : Shell) : List ℝ :=
  sh.flatMap fun s => s.all.flatMap fun i => List.replicate (mult s.label * env) (s.vals.absT i)

/-- Specification: the states of all shells; each site not yet added has `combs`
states (multiplets of the site). -/
noncomputable def physStates (mult : Label → Nat) (combs : Nat) : List Shell → List (List ℝ)
  | [] => []
  | sh :: rest => physShell mult (combs ^ rest.length) sh :: physStates mult combs rest

/-- Specification: `g` is the lowest eigenvalue of a step. -/
def IsGround {K : Type} [LinearOrder K] (d : Diag K) (g : K) : Prop :=
  (∃ e ∈ d, g ∈ e.2.v) ∧ ∀ e ∈ d, ∀ x ∈ e.2.v, g ≤ x

end Verif.Thermo
