import Verif.Sumrule.Model
import Verif.Sumrule.Reduce
import Verif.Symm.Spec
import Verif.Oper.Model
import Verif.Dm.FdmProps
import Verif.Spectral.AlgoProps
import Verif.Coef.Keep
import Verif.Coef.All
/-!
# Specification vocabulary for the second sweep
-/

namespace Verif.Sumrule
open Verif.Invar Verif.Symm Verif.Mat Verif.Dm Finset
variable {𝕜 : Type} [RCLike 𝕜]

/-- What the discarded states of a step contribute to the expectation value of the
operator `O`: the sum over them of weight times diagonal matrix element.  The weight of a
state with energy `E` is `wn exp(-E/T) / ∑ exp(-E/T)`. -/
noncomputable def discardedPart (S : Symmetry) (T : ℝ) (s : FShell 𝕜) (O : Ops.Elements 𝕜) : 𝕜 :=
  (s.thermo.map fun d => (d.all.map fun i => ((mult S.fields d.label : ℤ) : 𝕜) *
    (((s.wn * Real.exp (-(d.vals.absZero i) / T) / s.ZnDN : ℝ) : 𝕜) * Ops.optEntry (O.lookup (d.label, d.label)) i i)).sum).sum

/-- Labels of a step. -/
def LabelsPhysical (S : Symmetry) (s : Shell 𝕜) : Prop :=
  (s.diag.map Prod.fst).Nodup ∧ (∀ q ∈ s.diag, Symm.Physical S.fields q.1) ∧ ∀ p ∈ s.store, Symm.Physical S.fields p.1

/-- A scalar operator on all states of a step: one square block for each subspace. -/
structure ScalarOn (diag : DiagU 𝕜) (O : Ops.Elements 𝕜) : Prop where
  sized : ∀ e ∈ O, ∃ p ∈ diag, e.1 = (p.1, p.1) ∧ e.2.r = p.2.nr ∧ e.2.c = p.2.nr
  all : ∀ p ∈ diag, (O.lookup (p.1, p.1)).isSome

/-- The operator of step `cur` is that of step `prev`, restricted to the states kept there,
and transformed to the new states. -/
def CarriedScalar (B : Builtin) (cur prev : FShell 𝕜 × Ops.Elements 𝕜) : Prop :=
  ∃ sub O', substruct B.sym (keptSizes prev.1.store) = some sub ∧ (∀ q ∈ cur.1.diag, q.1 ∈ sub.map Prod.fst) ∧
    trimElements (keptSizes prev.1.store) prev.2 = some O' ∧
    recalcSinglet B.sym cur.1.diag sub O' ((Oper.invarSinglet.lookup B.symtype).getD []) = some cur.2

/-- The history of a scalar operator in the second sweep, the last step first. -/
def ScalarHistory (B : Builtin) : List (FShell 𝕜 × Ops.Elements 𝕜) → Prop
  | cur :: prev :: rest => CarriedScalar B cur prev ∧ ScalarHistory B (prev :: rest)
  | [first] => ScalarOn first.1.diag first.2
  | [] => True

/-! ### Spectral functions -/

open Spectral in
/-- The expectation value of `P` in the complete density matrix of a step: the reduced density
matrix `ρ` on the kept states and `wnf exp(-E/T)` on the discarded ones. -/
noncomputable def fullExpect (S : Symmetry) (T : ℝ) (st : SpecStep) (ρ : Rho ℂ) (P : Scalar ℂ) : ℂ :=
  (st.shell.thermo.map fun d => ((mult S.fields d.label : ℤ) : ℂ) * ∑ k ∈ range d.dim, ∑ l ∈ range d.dim,
    fullRho (eigD d) ((ρ.lookup d.label).getD Mat.empty) st.wnf T k l * P d.label l k).sum

/-- The stored spectrum of a step belongs to its eigenvectors and its truncation; `last` says whether
the step is the last one. -/
structure SpectrumOK (last : Bool) (s : FShell ℂ) : Prop where
  states : s.thermo.map (fun d => (d.label, d.dim)) = Coef.stateCounts s.diag
  kept : s.thermo.map (fun d => (d.label, d.kept)) = keptSizes s.store
  le : ∀ d ∈ s.thermo, d.kept ≤ d.dim
  flag : ∀ d ∈ s.thermo, d.last = last

/-- Only the first entry of the list is the last step of the run. -/
def SpectraOK (last : Bool) : List SpecStep → Prop
  | st :: rest => SpectrumOK last st.shell ∧ SpectraOK false rest
  | [] => True

/-- The weights of a step belong to its spectrum, and all its energies have the same references. -/
structure WeightsOK (S : Symmetry) (T : ℝ) (st : SpecStep) : Prop where
  ZnDN : st.shell.ZnDN = Thermo.shellSum (multN S) (fun d i => Real.exp (-(d.vals.absZero i) / T)) st.shell.thermo
  wn : st.shell.wn = st.wnf * Thermo.shellSum (multN S) (fun d i => Real.exp (-(d.vals.absG i) / T)) st.shell.thermo
  refs : ∃ gs, Thermo.Consistent gs st.shell.thermo
  mult : ∀ d ∈ st.shell.thermo, 0 < mult S.fields d.label

/-- Operators of the kind the function `T` handles, on all states of a step. -/
structure OperatorAll (T : Oper.OpTable) (diag : DiagU 𝕜) (O : Ops.Elements 𝕜) : Prop where
  on : Coef.OperatorOn T (Coef.stateCounts diag) O
  keys : (O.map Prod.fst).Nodup
  labels : ∀ e ∈ O, e.1.1 ∈ diag.map Prod.fst ∧ e.1.2 ∈ diag.map Prod.fst

/-- The operator `O` of this step is `Oprev`, restricted to the states kept in the previous
step, and carried by the function `T`. -/
def CarriedBy (T : Oper.OpTable) (prev : BackShell) (diag : DiagU 𝕜) (sub : List (Label × List Nat)) (Oprev O : Ops.Elements 𝕜) : Prop :=
  ∃ O', trimElements (keptSizes prev) Oprev = some O' ∧ Coef.recalcOp T diag sub O' = some O

/-- The history of a pair of operators in the second sweep, the last step first: in every step all
subspaces are diagonalised completely, and both operators are carried from the previous step. -/
def OperatorHistory (T : Oper.OpTable) : List SpecStep → Prop
  | cur :: prev :: rest => (∃ sub, Coef.KeepsAll T (keptSizes prev.shell.store) cur.shell.diag sub ∧
      (∀ p ∈ cur.shell.diag, Coef.Regular T p.1) ∧
      CarriedBy T prev.shell.store cur.shell.diag sub prev.A cur.A ∧ CarriedBy T prev.shell.store cur.shell.diag sub prev.B cur.B) ∧
      OperatorHistory T (prev :: rest)
  | [first] => OperatorAll T first.shell.diag first.A ∧ OperatorAll T first.shell.diag first.B ∧
      (first.shell.diag.map Prod.fst).Nodup ∧ ∀ p ∈ first.shell.diag, 0 < p.2.nr
  | [] => True

end Verif.Sumrule
