import Verif.Coef.PlanRest
import Verif.Coef.Regimes
/-!
# The identities between the factors, evaluated (ISO)

Generated by `scripts/gen_runs.py`.
-/

set_option maxRecDepth 100000

namespace Verif.Coef
open Verif.Symm Verif.Oper

theorem plan_ok_DBLISOSZ_2ch_doublet : planOk op_DBLISOSZ_2ch_doublet plan_DBLISOSZ_2ch_doublet = true := by decide +kernel

theorem run_ok_DBLISOSZ_2ch_doublet : runOk op_DBLISOSZ_2ch_doublet plan_DBLISOSZ_2ch_doublet fields_DBLISOSZ factors_DBLISOSZ
    (regsOf fields_DBLISOSZ (List.map Prod.snd ([(false, regsU 3), (true, regsV 3)] : List (Bool × List Reg)))) = true := by decide +kernel

theorem orthonormal_DBLISOSZ_2ch_doublet : AllOrthonormal op_DBLISOSZ_2ch_doublet :=
  allOrthonormal_of (ex := [[], []]) plan_ok_DBLISOSZ_2ch_doublet (runOk_holds run_ok_DBLISOSZ_2ch_doublet) (by decide)
    (usOk_U 3 rfl (by norm_num) (usOk_V 3 rfl (by norm_num) (usOk_skip rfl usOk_nil))) (by simp) rfl factorsOf_DBLISOSZ

theorem plan_ok_ISO_1ch_doublet : planOk op_ISO_1ch_doublet plan_ISO_1ch_doublet = true := by decide +kernel

theorem run_ok_ISO_1ch_doublet : runOk op_ISO_1ch_doublet plan_ISO_1ch_doublet fields_ISO factors_ISO
    (regsOf fields_ISO (List.map Prod.snd ([(false, regsU 3), (true, regsV 3)] : List (Bool × List Reg)))) = true := by decide +kernel

theorem orthonormal_ISO_1ch_doublet : AllOrthonormal op_ISO_1ch_doublet :=
  allOrthonormal_of (ex := [[], []]) plan_ok_ISO_1ch_doublet (runOk_holds run_ok_ISO_1ch_doublet) (by decide)
    (usOk_U 3 rfl (by norm_num) (usOk_V 3 rfl (by norm_num) usOk_nil)) (by simp) rfl factorsOf_ISO

theorem plan_ok_ISO_2ch_doublet : planOk op_ISO_2ch_doublet plan_ISO_2ch_doublet = true := by decide +kernel

theorem run_ok_ISO_2ch_doublet : runOk op_ISO_2ch_doublet plan_ISO_2ch_doublet fields_ISO factors_ISO
    (regsOf fields_ISO (List.map Prod.snd ([(false, regsU 4), (true, regsV 4)] : List (Bool × List Reg)))) = true := by decide +kernel

theorem orthonormal_ISO_2ch_doublet : AllOrthonormal op_ISO_2ch_doublet :=
  allOrthonormal_of (ex := [[], []]) plan_ok_ISO_2ch_doublet (runOk_holds run_ok_ISO_2ch_doublet) (by decide)
    (usOk_U 4 rfl (by norm_num) (usOk_V 4 rfl (by norm_num) usOk_nil)) (by simp) rfl factorsOf_ISO

theorem plan_ok_ISO_1ch_triplet : planOk op_ISO_1ch_triplet plan_ISO_1ch_triplet = true := by decide +kernel

theorem run_ok_ISO_1ch_triplet : runOk op_ISO_1ch_triplet plan_ISO_1ch_triplet fields_ISO factors_ISO
    (regsOf fields_ISO (List.map Prod.snd ([(false, regsU 2), (true, regsV 4)] : List (Bool × List Reg)))) = true := by decide +kernel

theorem orthonormal_ISO_1ch_triplet : AllOrthonormal op_ISO_1ch_triplet :=
  allOrthonormal_of (ex := [[], []]) plan_ok_ISO_1ch_triplet (runOk_holds run_ok_ISO_1ch_triplet) (by decide)
    (usOk_U 2 rfl (by norm_num) (usOk_V 4 rfl (by norm_num) usOk_nil)) (by simp) rfl factorsOf_ISO

theorem plan_ok_ISO_2ch_triplet : planOk op_ISO_2ch_triplet plan_ISO_2ch_triplet = true := by decide +kernel

theorem run_ok_ISO_2ch_triplet : runOk op_ISO_2ch_triplet plan_ISO_2ch_triplet fields_ISO factors_ISO
    (regsOf fields_ISO (List.map Prod.snd ([(false, regsU 3), (true, regsV 5)] : List (Bool × List Reg)))) = true := by decide +kernel

theorem orthonormal_ISO_2ch_triplet : AllOrthonormal op_ISO_2ch_triplet :=
  allOrthonormal_of (ex := [[], []]) plan_ok_ISO_2ch_triplet (runOk_holds run_ok_ISO_2ch_triplet) (by decide)
    (usOk_U 3 rfl (by norm_num) (usOk_V 5 rfl (by norm_num) usOk_nil)) (by simp) rfl factorsOf_ISO

theorem plan_ok_ISO2_1ch_doublet : planOk op_ISO2_1ch_doublet plan_ISO2_1ch_doublet = true := by decide +kernel

theorem run_ok_ISO2_1ch_doublet : runOk op_ISO2_1ch_doublet plan_ISO2_1ch_doublet fields_ISO factors_ISO2
    (regsOf fields_ISO (List.map Prod.snd ([(false, regsU 3), (true, regsV 3)] : List (Bool × List Reg)))) = true := by decide +kernel

theorem orthonormal_ISO2_1ch_doublet : AllOrthonormal op_ISO2_1ch_doublet :=
  allOrthonormal_of (ex := [[], []]) plan_ok_ISO2_1ch_doublet (runOk_holds run_ok_ISO2_1ch_doublet) (by decide)
    (usOk_U 3 rfl (by norm_num) (usOk_V 3 rfl (by norm_num) usOk_nil)) (by simp) rfl factorsOf_ISO2

theorem plan_ok_ISO2_2ch_doublet : planOk op_ISO2_2ch_doublet plan_ISO2_2ch_doublet = true := by decide +kernel

theorem run_ok_ISO2_2ch_doublet : runOk op_ISO2_2ch_doublet plan_ISO2_2ch_doublet fields_ISO factors_ISO2
    (regsOf fields_ISO (List.map Prod.snd ([(false, regsU 4), (true, regsV 4)] : List (Bool × List Reg)))) = true := by decide +kernel

theorem orthonormal_ISO2_2ch_doublet : AllOrthonormal op_ISO2_2ch_doublet :=
  allOrthonormal_of (ex := [[], []]) plan_ok_ISO2_2ch_doublet (runOk_holds run_ok_ISO2_2ch_doublet) (by decide)
    (usOk_U 4 rfl (by norm_num) (usOk_V 4 rfl (by norm_num) usOk_nil)) (by simp) rfl factorsOf_ISO2

theorem plan_ok_ISO2_1ch_triplet : planOk op_ISO2_1ch_triplet plan_ISO2_1ch_triplet = true := by decide +kernel

theorem run_ok_ISO2_1ch_triplet : runOk op_ISO2_1ch_triplet plan_ISO2_1ch_triplet fields_ISO factors_ISO2
    (regsOf fields_ISO (List.map Prod.snd ([(false, regsU 2), (true, regsV 4)] : List (Bool × List Reg)))) = true := by decide +kernel

theorem orthonormal_ISO2_1ch_triplet : AllOrthonormal op_ISO2_1ch_triplet :=
  allOrthonormal_of (ex := [[], []]) plan_ok_ISO2_1ch_triplet (runOk_holds run_ok_ISO2_1ch_triplet) (by decide)
    (usOk_U 2 rfl (by norm_num) (usOk_V 4 rfl (by norm_num) usOk_nil)) (by simp) rfl factorsOf_ISO2

theorem plan_ok_ISO2_2ch_triplet : planOk op_ISO2_2ch_triplet plan_ISO2_2ch_triplet = true := by decide +kernel

theorem run_ok_ISO2_2ch_triplet : runOk op_ISO2_2ch_triplet plan_ISO2_2ch_triplet fields_ISO factors_ISO2
    (regsOf fields_ISO (List.map Prod.snd ([(false, regsU 3), (true, regsV 5)] : List (Bool × List Reg)))) = true := by decide +kernel

theorem orthonormal_ISO2_2ch_triplet : AllOrthonormal op_ISO2_2ch_triplet :=
  allOrthonormal_of (ex := [[], []]) plan_ok_ISO2_2ch_triplet (runOk_holds run_ok_ISO2_2ch_triplet) (by decide)
    (usOk_U 3 rfl (by norm_num) (usOk_V 5 rfl (by norm_num) usOk_nil)) (by simp) rfl factorsOf_ISO2

theorem plan_ok_ISOLR_2ch_doublet : planOk op_ISOLR_2ch_doublet plan_ISOLR_2ch_doublet = true := by decide +kernel

theorem run_ok_ISOLR_2ch_doublet : runOk op_ISOLR_2ch_doublet plan_ISOLR_2ch_doublet fields_ISOLR factors_ISOLR
    (regsOf fields_ISOLR (List.map Prod.snd ([(false, regsU 4), (true, regsV 4)] : List (Bool × List Reg)))) = true := by decide +kernel

theorem orthonormal_ISOLR_2ch_doublet : AllOrthonormal op_ISOLR_2ch_doublet :=
  allOrthonormal_of (ex := [[], []]) plan_ok_ISOLR_2ch_doublet (runOk_holds run_ok_ISOLR_2ch_doublet) (by decide)
    (usOk_U 4 rfl (by norm_num) (usOk_V 4 rfl (by norm_num) (usOk_skip rfl usOk_nil))) (by simp) rfl factorsOf_ISOLR

theorem plan_ok_ISOLR_2ch_triplet : planOk op_ISOLR_2ch_triplet plan_ISOLR_2ch_triplet = true := by decide +kernel

theorem run_ok_ISOLR_2ch_triplet : runOk op_ISOLR_2ch_triplet plan_ISOLR_2ch_triplet fields_ISOLR factors_ISOLR
    (regsOf fields_ISOLR (List.map Prod.snd ([(false, regsU 3), (true, regsV 5)] : List (Bool × List Reg)))) = true := by decide +kernel

theorem orthonormal_ISOLR_2ch_triplet : AllOrthonormal op_ISOLR_2ch_triplet :=
  allOrthonormal_of (ex := [[], []]) plan_ok_ISOLR_2ch_triplet (runOk_holds run_ok_ISOLR_2ch_triplet) (by decide)
    (usOk_U 3 rfl (by norm_num) (usOk_V 5 rfl (by norm_num) (usOk_skip rfl usOk_nil))) (by simp) rfl factorsOf_ISOLR

theorem plan_ok_ISO2LR_2ch_doublet : planOk op_ISO2LR_2ch_doublet plan_ISO2LR_2ch_doublet = true := by decide +kernel

theorem run_ok_ISO2LR_2ch_doublet : runOk op_ISO2LR_2ch_doublet plan_ISO2LR_2ch_doublet fields_ISOLR factors_ISO2LR
    (regsOf fields_ISOLR (List.map Prod.snd ([(false, regsU 4), (true, regsV 4)] : List (Bool × List Reg)))) = true := by decide +kernel

theorem orthonormal_ISO2LR_2ch_doublet : AllOrthonormal op_ISO2LR_2ch_doublet :=
  allOrthonormal_of (ex := [[], []]) plan_ok_ISO2LR_2ch_doublet (runOk_holds run_ok_ISO2LR_2ch_doublet) (by decide)
    (usOk_U 4 rfl (by norm_num) (usOk_V 4 rfl (by norm_num) (usOk_skip rfl usOk_nil))) (by simp) rfl factorsOf_ISO2LR

theorem plan_ok_ISO2LR_2ch_triplet : planOk op_ISO2LR_2ch_triplet plan_ISO2LR_2ch_triplet = true := by decide +kernel

theorem run_ok_ISO2LR_2ch_triplet : runOk op_ISO2LR_2ch_triplet plan_ISO2LR_2ch_triplet fields_ISOLR factors_ISO2LR
    (regsOf fields_ISOLR (List.map Prod.snd ([(false, regsU 3), (true, regsV 5)] : List (Bool × List Reg)))) = true := by decide +kernel

theorem orthonormal_ISO2LR_2ch_triplet : AllOrthonormal op_ISO2LR_2ch_triplet :=
  allOrthonormal_of (ex := [[], []]) plan_ok_ISO2LR_2ch_triplet (runOk_holds run_ok_ISO2LR_2ch_triplet) (by decide)
    (usOk_U 3 rfl (by norm_num) (usOk_V 5 rfl (by norm_num) (usOk_skip rfl usOk_nil))) (by simp) rfl factorsOf_ISO2LR

end Verif.Coef
