import Verif.Coef.PlanQJ
import Verif.Coef.Regimes
/-!
# The identities between the factors, evaluated (QJ)

Generated by `scripts/gen_runs.py`.
-/

set_option maxRecDepth 100000

namespace Verif.Coef
open Verif.Symm Verif.Oper

theorem plan_ok_QJ_3ch_doublet : planOk op_QJ_3ch_doublet plan_QJ_3ch_doublet = true := by decide +kernel

theorem run_ok_QJ_3ch_doublet : runOk op_QJ_3ch_doublet plan_QJ_3ch_doublet fields_QJ factors_QJ
    (regsOf fields_QJ (List.map Prod.snd ([(true, regsV 7)] : List (Bool × List Reg)))) = true := by decide +kernel

theorem orthonormal_QJ_3ch_doublet : AllOrthonormal op_QJ_3ch_doublet :=
  allOrthonormal_of (ex := [[]]) plan_ok_QJ_3ch_doublet (runOk_holds run_ok_QJ_3ch_doublet) (by decide)
    (usOk_skip rfl (usOk_V 7 rfl (by norm_num) usOk_nil)) (by simp) rfl factorsOf_QJ

end Verif.Coef
