import Verif.Coef.PlanSPSU2T
import Verif.Coef.Regimes
/-!
# The identities between the factors, evaluated (SPSU2T)

Generated by `scripts/gen_runs.py`.
-/

set_option maxRecDepth 100000

namespace Verif.Coef
open Verif.Symm Verif.Oper

theorem plan_ok_SPSU2T_3ch_triplet : planOk op_SPSU2T_3ch_triplet plan_SPSU2T_3ch_triplet = true := by decide +kernel

theorem run_ok_SPSU2T_3ch_triplet : runOk op_SPSU2T_3ch_triplet plan_SPSU2T_3ch_triplet fields_SPSU2T factors_SPSU2T
    (regsOf fields_SPSU2T (List.map Prod.snd ([(false, (regsU 6).filter (keepReg [1, 2])), (true, regsVT 2)] : List (Bool × List Reg)))) = true := by decide +kernel

theorem orthonormal_SPSU2T_3ch_triplet : OrthonormalUnless op_SPSU2T_3ch_triplet [[1, 2], []] :=
  orthonormalUnless_of plan_ok_SPSU2T_3ch_triplet (runOk_holds run_ok_SPSU2T_3ch_triplet) (by decide)
    (usOk_UE 6 [1, 2] rfl (by norm_num) (usOk_VT 2 rfl usOk_nil)) rfl factorsOf_SPSU2T

end Verif.Coef
