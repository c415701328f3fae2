import Verif.Coef.Value
import Verif.Oper.Spec
import Verif.Symm.Spec
/-!
# Specification vocabulary: operators and their products
-/

namespace Verif.Coef
open Verif.Invar Verif.Symm Verif.Oper Verif.Dm Verif.Mat Finset

variable {𝕜 : Type} [RCLike 𝕜]

/-- `⟨I a| A B† |I b⟩`: the sum over all states `c` of all subspaces of a step.  `sizes`:
the numbers of states. -/
def prodEntry (sizes : Sizes) (A B : Ops.Elements 𝕜) (I : Label) (a b : ℕ) : 𝕜 :=
  (sizes.map fun q => ∑ c ∈ range q.2,
    Ops.optEntry (A.lookup (I, q.1)) a c * star (Ops.optEntry (B.lookup (I, q.1)) b c)).sum

/-- The numbers of states kept in a step. -/
def stateCounts (diag : DiagU 𝕜) : Sizes := diag.map fun p => (p.1, p.2.nr)

/-- An operator of the kind the function `T` handles, on a step with these numbers of
states: blocks have the right sizes, and are between subspaces the operator connects. -/
structure OperatorOn (T : OpTable) (sizes : Sizes) (O : Ops.Elements 𝕜) : Prop where
  fits : ∀ p ∈ O, p.2.r = sizeSubspace sizes p.1.1 ∧ p.2.c = sizeSubspace sizes p.1.2
  carried : ∀ p ∈ O, ∃ c ∈ T.iops, Carries T.builtin.sym.fields p.1.1 p.1.2 c

/-- A scalar operator `P` with the matrix elements of `A B†`. -/
def IsProduct (sizes : Sizes) (A B P : Ops.Elements 𝕜) : Prop :=
  ∀ q ∈ sizes, ∃ M, P.lookup (q.1, q.1) = some M ∧ M.r = q.2 ∧ M.c = q.2 ∧
    ∀ a < q.2, ∀ b < q.2, M.e a b = prodEntry sizes A B q.1 a b

/-- The labels of a step. -/
structure LabelsOK (T : OpTable) (sizes : Sizes) : Prop where
  nodup : (sizes.map Prod.fst).Nodup
  valid : ∀ q ∈ sizes, Valid (types T.builtin.sym.fields) q.1 ∧ allowed T.builtin.sym.fields q.1 = true ∧
    (T.builtin.symtype = "NONE" → q.1 = [0])

/-- A step in which nothing is lost: `old` are the numbers of states of the previous step,
`diag` the subspaces of this one, with `sub` the sizes of their blocks. -/
structure NothingLost (T : OpTable) (old : Sizes) (diag : DiagU 𝕜) (sub : List (Label × List Nat)) : Prop where
  oldLabels : LabelsOK T old
  labels : LabelsOK T (stateCounts diag)
  /-- spin multiplicities are positive -/
  spins : ∀ p ∈ diag, Symm.Physical T.builtin.sym.fields p.1
  /-- every subspace consists of the combinations of old states with states of the site, and
  its eigenvectors are a full orthonormal basis -/
  full : ∀ p ∈ diag, ∃ d V, sub.lookup p.1 = some d ∧ subspaceDims T.builtin.sym old p.1 = some d ∧
    Ops.HoldsRows p.2 V d ∧ p.2.nr = d.sum ∧
    ∀ a < p.2.nr, ∀ b < p.2.nr, ∑ x ∈ range V.c, V.e a x * star (V.e b x) = if a = b then 1 else 0
  /-- no subspace is missing -/
  complete : ∀ J, Valid (types T.builtin.sym.fields) J → ∀ i A, couplesTo T.builtin.sym J i A = true →
    0 < sizeSubspace old A → J ∈ diag.map Prod.fst

end Verif.Coef
