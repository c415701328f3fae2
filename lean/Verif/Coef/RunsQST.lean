import Verif.Coef.PlanQST
import Verif.Coef.Regimes
/-!
# The identities between the factors, evaluated (QST)

Generated by `scripts/gen_runs.py`.
-/

set_option maxRecDepth 100000

namespace Verif.Coef
open Verif.Symm Verif.Oper

theorem plan_ok_QST_3ch_triplet : planOk op_QST_3ch_triplet plan_QST_3ch_triplet = true := by decide +kernel

theorem run_ok_QST_3ch_triplet : runOk op_QST_3ch_triplet plan_QST_3ch_triplet fields_QST factors_QST
    (regsOf fields_QST (List.map Prod.snd ([(false, regsU 6), (true, regsVT 2)] : List (Bool × List Reg)))) = true := by decide +kernel

theorem orthonormal_QST_3ch_triplet : AllOrthonormal op_QST_3ch_triplet :=
  allOrthonormal_of (ex := [[], []]) plan_ok_QST_3ch_triplet (runOk_holds run_ok_QST_3ch_triplet) (by decide)
    (usOk_skip rfl (usOk_U 6 rfl (by norm_num) (usOk_VT 2 rfl usOk_nil))) (by simp) rfl factorsOf_QST

theorem plan_ok_QST_3ch_orbTriplet : planOk op_QST_3ch_orbTriplet plan_QST_3ch_orbTriplet = true := by decide +kernel

theorem run_ok_QST_3ch_orbTriplet : runOk op_QST_3ch_orbTriplet plan_QST_3ch_orbTriplet fields_QST factors_QST
    (regsOf fields_QST (List.map Prod.snd ([(false, regsU 4), (true, regsVT 3)] : List (Bool × List Reg)))) = true := by decide +kernel

theorem orthonormal_QST_3ch_orbTriplet : AllOrthonormal op_QST_3ch_orbTriplet :=
  allOrthonormal_of (ex := [[], []]) plan_ok_QST_3ch_orbTriplet (runOk_holds run_ok_QST_3ch_orbTriplet) (by decide)
    (usOk_skip rfl (usOk_U 4 rfl (by norm_num) (usOk_VT 3 rfl usOk_nil))) (by simp) rfl factorsOf_QST

end Verif.Coef
