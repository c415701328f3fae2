import Mathlib.Analysis.RCLike.Basic
import Verif.Coef.CheckSound
import Verif.Coef.Table
import Verif.Ops.Spec
/-!
# Carrying operators to the next step, with the values of the matrix elements
(`recalc_doublet`, `recalc_triplet`, `recalc_orb_triplet`, `recalc_quadruplet` in
`c++/symmetry/nrg-recalc-*.hpp`, `recalc_general` in `c++/recalc.hpp:118-178`)

The matrices of the blocks are computed by `Verif.Ops.recalcGeneral`; the factors are the
values of the expressions in the tables.
-/

namespace Verif.Coef
open Verif.Invar Verif.Symm Verif.Oper Verif.Dm Verif.Mat

variable {𝕜 : Type} [RCLike 𝕜]

/-- The table of a target for the bra label `I1` (`std::initializer_list<Recalc>` filled by
the included `coefnew` file, e.g. `nrg-recalc-QS.hpp:44-46`). -/
noncomputable def valTable (𝕜 : Type) [RCLike 𝕜] (T : OpTable) (I1 : Label) (rs : List OpRow) :
    List (Ops.Recalc 𝕜) :=
  rs.map fun r => ⟨r.i1, r.ip, evalLabel ((T.labs[r.a]?).getD []) I1, evalLabel ((T.labs[r.b]?).getD []) I1,
    ((T.factor I1 r.k).real : 𝕜)⟩

/-- The row gets as far as the check `my_assert(std::isfinite(factor))`
(`c++/recalc.hpp:159-172`). -/
def rowUsed (S : Symmetry) (d1 dp : List Nat) (cold : Ops.Elements 𝕜) (t : Ops.Recalc 𝕜) : Prop :=
  allowed S.fields t.IN1 = true ∧ allowed S.fields t.INp = true ∧ d1[t.i1 - 1]? ≠ some 0 ∧ dp[t.ip - 1]? ≠ some 0 ∧
    (cold.lookup (t.IN1, t.INp)).isSome

/-- All factors that are used are finite. -/
def FactorsFinite (T : OpTable) (sub : List (Label × List Nat)) (cold : Ops.Elements 𝕜) (I1 Ip : Label)
    (rs : List OpRow) : Prop :=
  ∀ d1 dp, sub.lookup I1 = some d1 → sub.lookup Ip = some dp →
    ∀ r ∈ rs, rowUsed T.builtin.sym d1 dp cold ⟨r.i1, r.ip, evalLabel ((T.labs[r.a]?).getD []) I1,
      evalLabel ((T.labs[r.b]?).getD []) I1, ((T.factor I1 r.k).real : 𝕜)⟩ → (T.factor I1 r.k).toReal.isSome

open Classical in
/-- One block of a recalculation function, e.g. `nrg-recalc-QS.hpp:40-82`, with
`have_stored_subspaces` (`c++/symmetry.hpp:242-247`).  `none`: an exception.  The factors are
checked before the loop over the table; the result is the same, because a failed check always
ends in an exception. -/
noncomputable def recalcTargetV (T : OpTable) (diag : DiagU 𝕜) (sub : List (Label × List Nat)) (cold : Ops.Elements 𝕜)
    (I1 : Label) (t : OpTarget) : Option (Ops.Elements 𝕜) :=
  match t.rows with
  | none => none
  | some rs =>
    if haveStored (diag.map fun p => (p.1, p.2.nr)) I1 (evalLabel t.shift I1) then
      if triangle T.builtin.sym.fields I1 (evalLabel t.shift I1) t.iop = true ∧
        ¬ FactorsFinite T sub cold I1 (evalLabel t.shift I1) rs then none
      else
        (Ops.recalcGeneral T.builtin.sym diag sub cold I1 (evalLabel t.shift I1) (valTable 𝕜 T I1 rs) t.iop).map
          fun o => o.toList.map fun M => ((I1, evalLabel t.shift I1), M)
    else some []

/-- A recalculation function: all blocks for all labels in `diag`
(e.g. `nrg-recalc-QS.hpp:32-180`).  `none`: an exception. -/
noncomputable def recalcOp (T : OpTable) (diag : DiagU 𝕜) (sub : List (Label × List Nat)) (cold : Ops.Elements 𝕜) :
    Option (Ops.Elements 𝕜) := do
  let l ← diag.mapM fun p => do
    let m ← T.targets.mapM (recalcTargetV T diag sub cold p.1)
    pure m.flatten
  pure l.flatten

end Verif.Coef
