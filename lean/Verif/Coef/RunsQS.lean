import Verif.Coef.PlanQS
import Verif.Coef.Regimes
/-!
# The identities between the factors, evaluated (QS)

Generated by `scripts/gen_runs.py`.
-/

set_option maxRecDepth 100000

namespace Verif.Coef
open Verif.Symm Verif.Oper

theorem plan_ok_QS_1ch_doublet : planOk op_QS_1ch_doublet plan_QS_1ch_doublet = true := by decide +kernel

theorem run_ok_QS_1ch_doublet : runOk op_QS_1ch_doublet plan_QS_1ch_doublet fields_QS factors_QS
    (regsOf fields_QS (List.map Prod.snd ([(true, regsV 3)] : List (Bool × List Reg)))) = true := by decide +kernel

theorem orthonormal_QS_1ch_doublet : AllOrthonormal op_QS_1ch_doublet :=
  allOrthonormal_of (ex := [[]]) plan_ok_QS_1ch_doublet (runOk_holds run_ok_QS_1ch_doublet) (by decide)
    (usOk_skip rfl (usOk_V 3 rfl (by norm_num) usOk_nil)) (by simp) rfl factorsOf_QS

theorem plan_ok_QS_2ch_doublet : planOk op_QS_2ch_doublet plan_QS_2ch_doublet = true := by decide +kernel

theorem run_ok_QS_2ch_doublet : runOk op_QS_2ch_doublet plan_QS_2ch_doublet fields_QS factors_QS
    (regsOf fields_QS (List.map Prod.snd ([(true, regsV 4)] : List (Bool × List Reg)))) = true := by decide +kernel

theorem orthonormal_QS_2ch_doublet : AllOrthonormal op_QS_2ch_doublet :=
  allOrthonormal_of (ex := [[]]) plan_ok_QS_2ch_doublet (runOk_holds run_ok_QS_2ch_doublet) (by decide)
    (usOk_skip rfl (usOk_V 4 rfl (by norm_num) usOk_nil)) (by simp) rfl factorsOf_QS

theorem plan_ok_QS_3ch_doublet : planOk op_QS_3ch_doublet plan_QS_3ch_doublet = true := by decide +kernel

theorem run_ok_QS_3ch_doublet : runOk op_QS_3ch_doublet plan_QS_3ch_doublet fields_QS factors_QS
    (regsOf fields_QS (List.map Prod.snd ([(true, regsV 5)] : List (Bool × List Reg)))) = true := by decide +kernel

theorem orthonormal_QS_3ch_doublet : AllOrthonormal op_QS_3ch_doublet :=
  allOrthonormal_of (ex := [[]]) plan_ok_QS_3ch_doublet (runOk_holds run_ok_QS_3ch_doublet) (by decide)
    (usOk_skip rfl (usOk_V 5 rfl (by norm_num) usOk_nil)) (by simp) rfl factorsOf_QS

theorem plan_ok_QS_4ch_doublet : planOk op_QS_4ch_doublet plan_QS_4ch_doublet = true := by decide +kernel

theorem run_ok_QS_4ch_doublet : runOk op_QS_4ch_doublet plan_QS_4ch_doublet fields_QS factors_QS
    (regsOf fields_QS (List.map Prod.snd ([(true, regsV 6)] : List (Bool × List Reg)))) = true := by decide +kernel

theorem orthonormal_QS_4ch_doublet : AllOrthonormal op_QS_4ch_doublet :=
  allOrthonormal_of (ex := [[]]) plan_ok_QS_4ch_doublet (runOk_holds run_ok_QS_4ch_doublet) (by decide)
    (usOk_skip rfl (usOk_V 6 rfl (by norm_num) usOk_nil)) (by simp) rfl factorsOf_QS

theorem plan_ok_QS_1ch_triplet : planOk op_QS_1ch_triplet plan_QS_1ch_triplet = true := by decide +kernel

theorem run_ok_QS_1ch_triplet : runOk op_QS_1ch_triplet plan_QS_1ch_triplet fields_QS factors_QS
    (regsOf fields_QS (List.map Prod.snd ([(true, regsV 4)] : List (Bool × List Reg)))) = true := by decide +kernel

theorem orthonormal_QS_1ch_triplet : AllOrthonormal op_QS_1ch_triplet :=
  allOrthonormal_of (ex := [[]]) plan_ok_QS_1ch_triplet (runOk_holds run_ok_QS_1ch_triplet) (by decide)
    (usOk_skip rfl (usOk_V 4 rfl (by norm_num) usOk_nil)) (by simp) rfl factorsOf_QS

theorem plan_ok_QS_2ch_triplet : planOk op_QS_2ch_triplet plan_QS_2ch_triplet = true := by decide +kernel

theorem run_ok_QS_2ch_triplet : runOk op_QS_2ch_triplet plan_QS_2ch_triplet fields_QS factors_QS
    (regsOf fields_QS (List.map Prod.snd ([(true, regsV 5)] : List (Bool × List Reg)))) = true := by decide +kernel

theorem orthonormal_QS_2ch_triplet : AllOrthonormal op_QS_2ch_triplet :=
  allOrthonormal_of (ex := [[]]) plan_ok_QS_2ch_triplet (runOk_holds run_ok_QS_2ch_triplet) (by decide)
    (usOk_skip rfl (usOk_V 5 rfl (by norm_num) usOk_nil)) (by simp) rfl factorsOf_QS

theorem plan_ok_QS_3ch_triplet : planOk op_QS_3ch_triplet plan_QS_3ch_triplet = true := by decide +kernel

theorem run_ok_QS_3ch_triplet : runOk op_QS_3ch_triplet plan_QS_3ch_triplet fields_QS factors_QS
    (regsOf fields_QS (List.map Prod.snd ([(true, (regsV 6).filter (keepReg [2]))] : List (Bool × List Reg)))) = true := by decide +kernel

theorem orthonormal_QS_3ch_triplet : OrthonormalUnless op_QS_3ch_triplet [[2]] :=
  orthonormalUnless_of plan_ok_QS_3ch_triplet (runOk_holds run_ok_QS_3ch_triplet) (by decide)
    (usOk_skip rfl (usOk_VE 6 [2] rfl (by norm_num) usOk_nil)) rfl factorsOf_QS

theorem plan_ok_QS_4ch_triplet : planOk op_QS_4ch_triplet plan_QS_4ch_triplet = true := by decide +kernel

theorem run_ok_QS_4ch_triplet : runOk op_QS_4ch_triplet plan_QS_4ch_triplet fields_QS factors_QS
    (regsOf fields_QS (List.map Prod.snd ([(true, (regsV 7).filter (keepReg [2]))] : List (Bool × List Reg)))) = true := by decide +kernel

theorem orthonormal_QS_4ch_triplet : OrthonormalUnless op_QS_4ch_triplet [[2]] :=
  orthonormalUnless_of plan_ok_QS_4ch_triplet (runOk_holds run_ok_QS_4ch_triplet) (by decide)
    (usOk_skip rfl (usOk_VE 7 [2] rfl (by norm_num) usOk_nil)) rfl factorsOf_QS

end Verif.Coef
