import Verif.Coef.PlanRest
import Verif.Coef.Regimes
/-!
# The identities between the factors, evaluated (Rest)

Generated by `scripts/gen_runs.py`.
-/

set_option maxRecDepth 100000

namespace Verif.Coef
open Verif.Symm Verif.Oper

theorem plan_ok_DBLQSZ_2ch_doublet : planOk op_DBLQSZ_2ch_doublet plan_DBLQSZ_2ch_doublet = true := by decide +kernel

theorem run_ok_DBLQSZ_2ch_doublet : runOk op_DBLQSZ_2ch_doublet plan_DBLQSZ_2ch_doublet fields_DBLQSZ factors_DBLQSZ
    (regsOf fields_DBLQSZ (List.map Prod.snd ([] : List (Bool × List Reg)))) = true := by decide +kernel

theorem orthonormal_DBLQSZ_2ch_doublet : AllOrthonormal op_DBLQSZ_2ch_doublet :=
  allOrthonormal_of (ex := []) plan_ok_DBLQSZ_2ch_doublet (runOk_holds run_ok_DBLQSZ_2ch_doublet) (by decide)
    (usOk_skip rfl (usOk_skip rfl (usOk_skip rfl usOk_nil))) (by simp) rfl factorsOf_DBLQSZ

theorem plan_ok_ISOSZ_1ch_doublet : planOk op_ISOSZ_1ch_doublet plan_ISOSZ_1ch_doublet = true := by decide +kernel

theorem run_ok_ISOSZ_1ch_doublet : runOk op_ISOSZ_1ch_doublet plan_ISOSZ_1ch_doublet fields_ISOSZ factors_ISOSZ
    (regsOf fields_ISOSZ (List.map Prod.snd ([(true, regsV 3)] : List (Bool × List Reg)))) = true := by decide +kernel

theorem orthonormal_ISOSZ_1ch_doublet : AllOrthonormal op_ISOSZ_1ch_doublet :=
  allOrthonormal_of (ex := [[]]) plan_ok_ISOSZ_1ch_doublet (runOk_holds run_ok_ISOSZ_1ch_doublet) (by decide)
    (usOk_V 3 rfl (by norm_num) (usOk_skip rfl usOk_nil)) (by simp) rfl factorsOf_ISOSZ

theorem plan_ok_ISOSZ_2ch_doublet : planOk op_ISOSZ_2ch_doublet plan_ISOSZ_2ch_doublet = true := by decide +kernel

theorem run_ok_ISOSZ_2ch_doublet : runOk op_ISOSZ_2ch_doublet plan_ISOSZ_2ch_doublet fields_ISOSZ factors_ISOSZ
    (regsOf fields_ISOSZ (List.map Prod.snd ([(true, regsV 4)] : List (Bool × List Reg)))) = true := by decide +kernel

theorem orthonormal_ISOSZ_2ch_doublet : AllOrthonormal op_ISOSZ_2ch_doublet :=
  allOrthonormal_of (ex := [[]]) plan_ok_ISOSZ_2ch_doublet (runOk_holds run_ok_ISOSZ_2ch_doublet) (by decide)
    (usOk_V 4 rfl (by norm_num) (usOk_skip rfl usOk_nil)) (by simp) rfl factorsOf_ISOSZ

theorem plan_ok_ISOSZ_1ch_triplet : planOk op_ISOSZ_1ch_triplet plan_ISOSZ_1ch_triplet = true := by decide +kernel

theorem run_ok_ISOSZ_1ch_triplet : runOk op_ISOSZ_1ch_triplet plan_ISOSZ_1ch_triplet fields_ISOSZ factors_ISOSZ
    (regsOf fields_ISOSZ (List.map Prod.snd ([(true, regsV 2)] : List (Bool × List Reg)))) = true := by decide +kernel

theorem orthonormal_ISOSZ_1ch_triplet : AllOrthonormal op_ISOSZ_1ch_triplet :=
  allOrthonormal_of (ex := [[]]) plan_ok_ISOSZ_1ch_triplet (runOk_holds run_ok_ISOSZ_1ch_triplet) (by decide)
    (usOk_V 2 rfl (by norm_num) (usOk_skip rfl usOk_nil)) (by simp) rfl factorsOf_ISOSZ

theorem plan_ok_ISOSZ_2ch_triplet : planOk op_ISOSZ_2ch_triplet plan_ISOSZ_2ch_triplet = true := by decide +kernel

theorem run_ok_ISOSZ_2ch_triplet : runOk op_ISOSZ_2ch_triplet plan_ISOSZ_2ch_triplet fields_ISOSZ factors_ISOSZ
    (regsOf fields_ISOSZ (List.map Prod.snd ([(true, regsV 3)] : List (Bool × List Reg)))) = true := by decide +kernel

theorem orthonormal_ISOSZ_2ch_triplet : AllOrthonormal op_ISOSZ_2ch_triplet :=
  allOrthonormal_of (ex := [[]]) plan_ok_ISOSZ_2ch_triplet (runOk_holds run_ok_ISOSZ_2ch_triplet) (by decide)
    (usOk_V 3 rfl (by norm_num) (usOk_skip rfl usOk_nil)) (by simp) rfl factorsOf_ISOSZ

theorem plan_ok_ISOSZLR_2ch_doublet : planOk op_ISOSZLR_2ch_doublet plan_ISOSZLR_2ch_doublet = true := by decide +kernel

theorem run_ok_ISOSZLR_2ch_doublet : runOk op_ISOSZLR_2ch_doublet plan_ISOSZLR_2ch_doublet fields_ISOSZLR factors_ISOSZLR
    (regsOf fields_ISOSZLR (List.map Prod.snd ([(true, regsV 4)] : List (Bool × List Reg)))) = true := by decide +kernel

theorem orthonormal_ISOSZLR_2ch_doublet : AllOrthonormal op_ISOSZLR_2ch_doublet :=
  allOrthonormal_of (ex := [[]]) plan_ok_ISOSZLR_2ch_doublet (runOk_holds run_ok_ISOSZLR_2ch_doublet) (by decide)
    (usOk_V 4 rfl (by norm_num) (usOk_skip rfl (usOk_skip rfl usOk_nil))) (by simp) rfl factorsOf_ISOSZLR

theorem plan_ok_ISOSZLR_2ch_triplet : planOk op_ISOSZLR_2ch_triplet plan_ISOSZLR_2ch_triplet = true := by decide +kernel

theorem run_ok_ISOSZLR_2ch_triplet : runOk op_ISOSZLR_2ch_triplet plan_ISOSZLR_2ch_triplet fields_ISOSZLR factors_ISOSZLR
    (regsOf fields_ISOSZLR (List.map Prod.snd ([(true, regsV 3)] : List (Bool × List Reg)))) = true := by decide +kernel

theorem orthonormal_ISOSZLR_2ch_triplet : AllOrthonormal op_ISOSZLR_2ch_triplet :=
  allOrthonormal_of (ex := [[]]) plan_ok_ISOSZLR_2ch_triplet (runOk_holds run_ok_ISOSZLR_2ch_triplet) (by decide)
    (usOk_V 3 rfl (by norm_num) (usOk_skip rfl (usOk_skip rfl usOk_nil))) (by simp) rfl factorsOf_ISOSZLR

theorem plan_ok_NONE_1ch_doublet : planOk op_NONE_1ch_doublet plan_NONE_1ch_doublet = true := by decide +kernel

theorem run_ok_NONE_1ch_doublet : runOk op_NONE_1ch_doublet plan_NONE_1ch_doublet fields_NONE factors_NONE
    (regsOf fields_NONE (List.map Prod.snd ([] : List (Bool × List Reg)))) = true := by decide +kernel

theorem orthonormal_NONE_1ch_doublet : AllOrthonormal op_NONE_1ch_doublet :=
  allOrthonormal_of (ex := []) plan_ok_NONE_1ch_doublet (runOk_holds run_ok_NONE_1ch_doublet) (by decide)
    (usOk_skip rfl usOk_nil) (by simp) rfl factorsOf_NONE

theorem plan_ok_NONE_2ch_doublet : planOk op_NONE_2ch_doublet plan_NONE_2ch_doublet = true := by decide +kernel

theorem run_ok_NONE_2ch_doublet : runOk op_NONE_2ch_doublet plan_NONE_2ch_doublet fields_NONE factors_NONE
    (regsOf fields_NONE (List.map Prod.snd ([] : List (Bool × List Reg)))) = true := by decide +kernel

theorem orthonormal_NONE_2ch_doublet : AllOrthonormal op_NONE_2ch_doublet :=
  allOrthonormal_of (ex := []) plan_ok_NONE_2ch_doublet (runOk_holds run_ok_NONE_2ch_doublet) (by decide)
    (usOk_skip rfl usOk_nil) (by simp) rfl factorsOf_NONE

theorem plan_ok_P_1ch_doublet : planOk op_P_1ch_doublet plan_P_1ch_doublet = true := by decide +kernel

theorem run_ok_P_1ch_doublet : runOk op_P_1ch_doublet plan_P_1ch_doublet fields_P factors_P
    (regsOf fields_P (List.map Prod.snd ([] : List (Bool × List Reg)))) = true := by decide +kernel

theorem orthonormal_P_1ch_doublet : AllOrthonormal op_P_1ch_doublet :=
  allOrthonormal_of (ex := []) plan_ok_P_1ch_doublet (runOk_holds run_ok_P_1ch_doublet) (by decide)
    (usOk_skip rfl usOk_nil) (by simp) rfl factorsOf_P

theorem plan_ok_P_2ch_doublet : planOk op_P_2ch_doublet plan_P_2ch_doublet = true := by decide +kernel

theorem run_ok_P_2ch_doublet : runOk op_P_2ch_doublet plan_P_2ch_doublet fields_P factors_P
    (regsOf fields_P (List.map Prod.snd ([] : List (Bool × List Reg)))) = true := by decide +kernel

theorem orthonormal_P_2ch_doublet : AllOrthonormal op_P_2ch_doublet :=
  allOrthonormal_of (ex := []) plan_ok_P_2ch_doublet (runOk_holds run_ok_P_2ch_doublet) (by decide)
    (usOk_skip rfl usOk_nil) (by simp) rfl factorsOf_P

theorem plan_ok_QSLR_2ch_doublet : planOk op_QSLR_2ch_doublet plan_QSLR_2ch_doublet = true := by decide +kernel

theorem run_ok_QSLR_2ch_doublet : runOk op_QSLR_2ch_doublet plan_QSLR_2ch_doublet fields_QSLR factors_QSLR
    (regsOf fields_QSLR (List.map Prod.snd ([(true, regsV 4)] : List (Bool × List Reg)))) = true := by decide +kernel

theorem orthonormal_QSLR_2ch_doublet : AllOrthonormal op_QSLR_2ch_doublet :=
  allOrthonormal_of (ex := [[]]) plan_ok_QSLR_2ch_doublet (runOk_holds run_ok_QSLR_2ch_doublet) (by decide)
    (usOk_skip rfl (usOk_V 4 rfl (by norm_num) (usOk_skip rfl usOk_nil))) (by simp) rfl factorsOf_QSLR

theorem plan_ok_QSLR_2ch_triplet : planOk op_QSLR_2ch_triplet plan_QSLR_2ch_triplet = true := by decide +kernel

theorem run_ok_QSLR_2ch_triplet : runOk op_QSLR_2ch_triplet plan_QSLR_2ch_triplet fields_QSLR factors_QSLR
    (regsOf fields_QSLR (List.map Prod.snd ([(true, regsV 5)] : List (Bool × List Reg)))) = true := by decide +kernel

theorem orthonormal_QSLR_2ch_triplet : AllOrthonormal op_QSLR_2ch_triplet :=
  allOrthonormal_of (ex := [[]]) plan_ok_QSLR_2ch_triplet (runOk_holds run_ok_QSLR_2ch_triplet) (by decide)
    (usOk_skip rfl (usOk_V 5 rfl (by norm_num) (usOk_skip rfl usOk_nil))) (by simp) rfl factorsOf_QSLR

theorem plan_ok_QSTZ_3ch_doublet : planOk op_QSTZ_3ch_doublet plan_QSTZ_3ch_doublet = true := by decide +kernel

theorem run_ok_QSTZ_3ch_doublet : runOk op_QSTZ_3ch_doublet plan_QSTZ_3ch_doublet fields_QSTZ factors_QSTZ
    (regsOf fields_QSTZ (List.map Prod.snd ([(true, regsV 5)] : List (Bool × List Reg)))) = true := by decide +kernel

theorem orthonormal_QSTZ_3ch_doublet : AllOrthonormal op_QSTZ_3ch_doublet :=
  allOrthonormal_of (ex := [[]]) plan_ok_QSTZ_3ch_doublet (runOk_holds run_ok_QSTZ_3ch_doublet) (by decide)
    (usOk_skip rfl (usOk_V 5 rfl (by norm_num) (usOk_skip rfl usOk_nil))) (by simp) rfl factorsOf_QSTZ

theorem plan_ok_QSTZ_3ch_triplet : planOk op_QSTZ_3ch_triplet plan_QSTZ_3ch_triplet = true := by decide +kernel

theorem run_ok_QSTZ_3ch_triplet : runOk op_QSTZ_3ch_triplet plan_QSTZ_3ch_triplet fields_QSTZ factors_QSTZ
    (regsOf fields_QSTZ (List.map Prod.snd ([(true, (regsV 6).filter (keepReg [1, 2]))] : List (Bool × List Reg)))) = true := by decide +kernel

theorem orthonormal_QSTZ_3ch_triplet : OrthonormalUnless op_QSTZ_3ch_triplet [[1, 2]] :=
  orthonormalUnless_of plan_ok_QSTZ_3ch_triplet (runOk_holds run_ok_QSTZ_3ch_triplet) (by decide)
    (usOk_skip rfl (usOk_VE 6 [1, 2] rfl (by norm_num) (usOk_skip rfl usOk_nil))) rfl factorsOf_QSTZ

theorem plan_ok_QSZ_1ch_doublet : planOk op_QSZ_1ch_doublet plan_QSZ_1ch_doublet = true := by decide +kernel

theorem run_ok_QSZ_1ch_doublet : runOk op_QSZ_1ch_doublet plan_QSZ_1ch_doublet fields_QSZ factors_QSZ
    (regsOf fields_QSZ (List.map Prod.snd ([] : List (Bool × List Reg)))) = true := by decide +kernel

theorem orthonormal_QSZ_1ch_doublet : AllOrthonormal op_QSZ_1ch_doublet :=
  allOrthonormal_of (ex := []) plan_ok_QSZ_1ch_doublet (runOk_holds run_ok_QSZ_1ch_doublet) (by decide)
    (usOk_skip rfl (usOk_skip rfl usOk_nil)) (by simp) rfl factorsOf_QSZ

theorem plan_ok_QSZ_2ch_doublet : planOk op_QSZ_2ch_doublet plan_QSZ_2ch_doublet = true := by decide +kernel

theorem run_ok_QSZ_2ch_doublet : runOk op_QSZ_2ch_doublet plan_QSZ_2ch_doublet fields_QSZ factors_QSZ
    (regsOf fields_QSZ (List.map Prod.snd ([] : List (Bool × List Reg)))) = true := by decide +kernel

theorem orthonormal_QSZ_2ch_doublet : AllOrthonormal op_QSZ_2ch_doublet :=
  allOrthonormal_of (ex := []) plan_ok_QSZ_2ch_doublet (runOk_holds run_ok_QSZ_2ch_doublet) (by decide)
    (usOk_skip rfl (usOk_skip rfl usOk_nil)) (by simp) rfl factorsOf_QSZ

theorem plan_ok_QSZ_3ch_doublet : planOk op_QSZ_3ch_doublet plan_QSZ_3ch_doublet = true := by decide +kernel

theorem run_ok_QSZ_3ch_doublet : runOk op_QSZ_3ch_doublet plan_QSZ_3ch_doublet fields_QSZ factors_QSZ
    (regsOf fields_QSZ (List.map Prod.snd ([] : List (Bool × List Reg)))) = true := by decide +kernel

theorem orthonormal_QSZ_3ch_doublet : AllOrthonormal op_QSZ_3ch_doublet :=
  allOrthonormal_of (ex := []) plan_ok_QSZ_3ch_doublet (runOk_holds run_ok_QSZ_3ch_doublet) (by decide)
    (usOk_skip rfl (usOk_skip rfl usOk_nil)) (by simp) rfl factorsOf_QSZ

theorem plan_ok_QSZ_1ch_triplet : planOk op_QSZ_1ch_triplet plan_QSZ_1ch_triplet = true := by decide +kernel

theorem run_ok_QSZ_1ch_triplet : runOk op_QSZ_1ch_triplet plan_QSZ_1ch_triplet fields_QSZ factors_QSZ
    (regsOf fields_QSZ (List.map Prod.snd ([] : List (Bool × List Reg)))) = true := by decide +kernel

theorem orthonormal_QSZ_1ch_triplet : AllOrthonormal op_QSZ_1ch_triplet :=
  allOrthonormal_of (ex := []) plan_ok_QSZ_1ch_triplet (runOk_holds run_ok_QSZ_1ch_triplet) (by decide)
    (usOk_skip rfl (usOk_skip rfl usOk_nil)) (by simp) rfl factorsOf_QSZ

theorem plan_ok_QSZ_2ch_triplet : planOk op_QSZ_2ch_triplet plan_QSZ_2ch_triplet = true := by decide +kernel

theorem run_ok_QSZ_2ch_triplet : runOk op_QSZ_2ch_triplet plan_QSZ_2ch_triplet fields_QSZ factors_QSZ
    (regsOf fields_QSZ (List.map Prod.snd ([] : List (Bool × List Reg)))) = true := by decide +kernel

theorem orthonormal_QSZ_2ch_triplet : AllOrthonormal op_QSZ_2ch_triplet :=
  allOrthonormal_of (ex := []) plan_ok_QSZ_2ch_triplet (runOk_holds run_ok_QSZ_2ch_triplet) (by decide)
    (usOk_skip rfl (usOk_skip rfl usOk_nil)) (by simp) rfl factorsOf_QSZ

theorem plan_ok_QSZTZ_3ch_doublet : planOk op_QSZTZ_3ch_doublet plan_QSZTZ_3ch_doublet = true := by decide +kernel

theorem run_ok_QSZTZ_3ch_doublet : runOk op_QSZTZ_3ch_doublet plan_QSZTZ_3ch_doublet fields_QSZTZ factors_QSZTZ
    (regsOf fields_QSZTZ (List.map Prod.snd ([] : List (Bool × List Reg)))) = true := by decide +kernel

theorem orthonormal_QSZTZ_3ch_doublet : AllOrthonormal op_QSZTZ_3ch_doublet :=
  allOrthonormal_of (ex := []) plan_ok_QSZTZ_3ch_doublet (runOk_holds run_ok_QSZTZ_3ch_doublet) (by decide)
    (usOk_skip rfl (usOk_skip rfl (usOk_skip rfl usOk_nil))) (by simp) rfl factorsOf_QSZTZ

theorem plan_ok_SL_1ch_doublet : planOk op_SL_1ch_doublet plan_SL_1ch_doublet = true := by decide +kernel

theorem run_ok_SL_1ch_doublet : runOk op_SL_1ch_doublet plan_SL_1ch_doublet fields_SL factors_SL
    (regsOf fields_SL (List.map Prod.snd ([] : List (Bool × List Reg)))) = true := by decide +kernel

theorem orthonormal_SL_1ch_doublet : AllOrthonormal op_SL_1ch_doublet :=
  allOrthonormal_of (ex := []) plan_ok_SL_1ch_doublet (runOk_holds run_ok_SL_1ch_doublet) (by decide)
    (usOk_skip rfl usOk_nil) (by simp) rfl factorsOf_SL

theorem plan_ok_SL_2ch_doublet : planOk op_SL_2ch_doublet plan_SL_2ch_doublet = true := by decide +kernel

theorem run_ok_SL_2ch_doublet : runOk op_SL_2ch_doublet plan_SL_2ch_doublet fields_SL factors_SL
    (regsOf fields_SL (List.map Prod.snd ([] : List (Bool × List Reg)))) = true := by decide +kernel

theorem orthonormal_SL_2ch_doublet : AllOrthonormal op_SL_2ch_doublet :=
  allOrthonormal_of (ex := []) plan_ok_SL_2ch_doublet (runOk_holds run_ok_SL_2ch_doublet) (by decide)
    (usOk_skip rfl usOk_nil) (by simp) rfl factorsOf_SL

theorem plan_ok_SL_3ch_doublet : planOk op_SL_3ch_doublet plan_SL_3ch_doublet = true := by decide +kernel

theorem run_ok_SL_3ch_doublet : runOk op_SL_3ch_doublet plan_SL_3ch_doublet fields_SL factors_SL
    (regsOf fields_SL (List.map Prod.snd ([] : List (Bool × List Reg)))) = true := by decide +kernel

theorem orthonormal_SL_3ch_doublet : AllOrthonormal op_SL_3ch_doublet :=
  allOrthonormal_of (ex := []) plan_ok_SL_3ch_doublet (runOk_holds run_ok_SL_3ch_doublet) (by decide)
    (usOk_skip rfl usOk_nil) (by simp) rfl factorsOf_SL

theorem plan_ok_SL3_3ch_doublet : planOk op_SL3_3ch_doublet plan_SL3_3ch_doublet = true := by decide +kernel

theorem run_ok_SL3_3ch_doublet : runOk op_SL3_3ch_doublet plan_SL3_3ch_doublet fields_SL3 factors_SL3
    (regsOf fields_SL3 (List.map Prod.snd ([] : List (Bool × List Reg)))) = true := by decide +kernel

theorem orthonormal_SL3_3ch_doublet : AllOrthonormal op_SL3_3ch_doublet :=
  allOrthonormal_of (ex := []) plan_ok_SL3_3ch_doublet (runOk_holds run_ok_SL3_3ch_doublet) (by decide)
    (usOk_skip rfl (usOk_skip rfl (usOk_skip rfl usOk_nil))) (by simp) rfl factorsOf_SL3

theorem plan_ok_SPSU2_1ch_doublet : planOk op_SPSU2_1ch_doublet plan_SPSU2_1ch_doublet = true := by decide +kernel

theorem run_ok_SPSU2_1ch_doublet : runOk op_SPSU2_1ch_doublet plan_SPSU2_1ch_doublet fields_SPSU2 factors_SPSU2
    (regsOf fields_SPSU2 (List.map Prod.snd ([(true, regsV 3)] : List (Bool × List Reg)))) = true := by decide +kernel

theorem orthonormal_SPSU2_1ch_doublet : AllOrthonormal op_SPSU2_1ch_doublet :=
  allOrthonormal_of (ex := [[]]) plan_ok_SPSU2_1ch_doublet (runOk_holds run_ok_SPSU2_1ch_doublet) (by decide)
    (usOk_V 3 rfl (by norm_num) usOk_nil) (by simp) rfl factorsOf_SPSU2

theorem plan_ok_SPSU2_2ch_doublet : planOk op_SPSU2_2ch_doublet plan_SPSU2_2ch_doublet = true := by decide +kernel

theorem run_ok_SPSU2_2ch_doublet : runOk op_SPSU2_2ch_doublet plan_SPSU2_2ch_doublet fields_SPSU2 factors_SPSU2
    (regsOf fields_SPSU2 (List.map Prod.snd ([(true, regsV 4)] : List (Bool × List Reg)))) = true := by decide +kernel

theorem orthonormal_SPSU2_2ch_doublet : AllOrthonormal op_SPSU2_2ch_doublet :=
  allOrthonormal_of (ex := [[]]) plan_ok_SPSU2_2ch_doublet (runOk_holds run_ok_SPSU2_2ch_doublet) (by decide)
    (usOk_V 4 rfl (by norm_num) usOk_nil) (by simp) rfl factorsOf_SPSU2

theorem plan_ok_SPSU2_3ch_doublet : planOk op_SPSU2_3ch_doublet plan_SPSU2_3ch_doublet = true := by decide +kernel

theorem run_ok_SPSU2_3ch_doublet : runOk op_SPSU2_3ch_doublet plan_SPSU2_3ch_doublet fields_SPSU2 factors_SPSU2
    (regsOf fields_SPSU2 (List.map Prod.snd ([(true, regsV 5)] : List (Bool × List Reg)))) = true := by decide +kernel

theorem orthonormal_SPSU2_3ch_doublet : AllOrthonormal op_SPSU2_3ch_doublet :=
  allOrthonormal_of (ex := [[]]) plan_ok_SPSU2_3ch_doublet (runOk_holds run_ok_SPSU2_3ch_doublet) (by decide)
    (usOk_V 5 rfl (by norm_num) usOk_nil) (by simp) rfl factorsOf_SPSU2

theorem plan_ok_SPSU2_1ch_triplet : planOk op_SPSU2_1ch_triplet plan_SPSU2_1ch_triplet = true := by decide +kernel

theorem run_ok_SPSU2_1ch_triplet : runOk op_SPSU2_1ch_triplet plan_SPSU2_1ch_triplet fields_SPSU2 factors_SPSU2
    (regsOf fields_SPSU2 (List.map Prod.snd ([(true, regsV 4)] : List (Bool × List Reg)))) = true := by decide +kernel

theorem orthonormal_SPSU2_1ch_triplet : AllOrthonormal op_SPSU2_1ch_triplet :=
  allOrthonormal_of (ex := [[]]) plan_ok_SPSU2_1ch_triplet (runOk_holds run_ok_SPSU2_1ch_triplet) (by decide)
    (usOk_V 4 rfl (by norm_num) usOk_nil) (by simp) rfl factorsOf_SPSU2

theorem plan_ok_SPSU2_2ch_triplet : planOk op_SPSU2_2ch_triplet plan_SPSU2_2ch_triplet = true := by decide +kernel

theorem run_ok_SPSU2_2ch_triplet : runOk op_SPSU2_2ch_triplet plan_SPSU2_2ch_triplet fields_SPSU2 factors_SPSU2
    (regsOf fields_SPSU2 (List.map Prod.snd ([(true, regsV 5)] : List (Bool × List Reg)))) = true := by decide +kernel

theorem orthonormal_SPSU2_2ch_triplet : AllOrthonormal op_SPSU2_2ch_triplet :=
  allOrthonormal_of (ex := [[]]) plan_ok_SPSU2_2ch_triplet (runOk_holds run_ok_SPSU2_2ch_triplet) (by decide)
    (usOk_V 5 rfl (by norm_num) usOk_nil) (by simp) rfl factorsOf_SPSU2

theorem plan_ok_SPU1_1ch_doublet : planOk op_SPU1_1ch_doublet plan_SPU1_1ch_doublet = true := by decide +kernel

theorem run_ok_SPU1_1ch_doublet : runOk op_SPU1_1ch_doublet plan_SPU1_1ch_doublet fields_SPU1 factors_SPU1
    (regsOf fields_SPU1 (List.map Prod.snd ([] : List (Bool × List Reg)))) = true := by decide +kernel

theorem orthonormal_SPU1_1ch_doublet : AllOrthonormal op_SPU1_1ch_doublet :=
  allOrthonormal_of (ex := []) plan_ok_SPU1_1ch_doublet (runOk_holds run_ok_SPU1_1ch_doublet) (by decide)
    (usOk_skip rfl usOk_nil) (by simp) rfl factorsOf_SPU1

theorem plan_ok_SPU1_2ch_doublet : planOk op_SPU1_2ch_doublet plan_SPU1_2ch_doublet = true := by decide +kernel

theorem run_ok_SPU1_2ch_doublet : runOk op_SPU1_2ch_doublet plan_SPU1_2ch_doublet fields_SPU1 factors_SPU1
    (regsOf fields_SPU1 (List.map Prod.snd ([] : List (Bool × List Reg)))) = true := by decide +kernel

theorem orthonormal_SPU1_2ch_doublet : AllOrthonormal op_SPU1_2ch_doublet :=
  allOrthonormal_of (ex := []) plan_ok_SPU1_2ch_doublet (runOk_holds run_ok_SPU1_2ch_doublet) (by decide)
    (usOk_skip rfl usOk_nil) (by simp) rfl factorsOf_SPU1

theorem plan_ok_SPU1_1ch_triplet : planOk op_SPU1_1ch_triplet plan_SPU1_1ch_triplet = true := by decide +kernel

theorem run_ok_SPU1_1ch_triplet : runOk op_SPU1_1ch_triplet plan_SPU1_1ch_triplet fields_SPU1 factors_SPU1
    (regsOf fields_SPU1 (List.map Prod.snd ([] : List (Bool × List Reg)))) = true := by decide +kernel

theorem orthonormal_SPU1_1ch_triplet : AllOrthonormal op_SPU1_1ch_triplet :=
  allOrthonormal_of (ex := []) plan_ok_SPU1_1ch_triplet (runOk_holds run_ok_SPU1_1ch_triplet) (by decide)
    (usOk_skip rfl usOk_nil) (by simp) rfl factorsOf_SPU1

theorem plan_ok_SPU1_2ch_triplet : planOk op_SPU1_2ch_triplet plan_SPU1_2ch_triplet = true := by decide +kernel

theorem run_ok_SPU1_2ch_triplet : runOk op_SPU1_2ch_triplet plan_SPU1_2ch_triplet fields_SPU1 factors_SPU1
    (regsOf fields_SPU1 (List.map Prod.snd ([] : List (Bool × List Reg)))) = true := by decide +kernel

theorem orthonormal_SPU1_2ch_triplet : AllOrthonormal op_SPU1_2ch_triplet :=
  allOrthonormal_of (ex := []) plan_ok_SPU1_2ch_triplet (runOk_holds run_ok_SPU1_2ch_triplet) (by decide)
    (usOk_skip rfl usOk_nil) (by simp) rfl factorsOf_SPU1

theorem plan_ok_SU2_1ch_doublet : planOk op_SU2_1ch_doublet plan_SU2_1ch_doublet = true := by decide +kernel

theorem run_ok_SU2_1ch_doublet : runOk op_SU2_1ch_doublet plan_SU2_1ch_doublet fields_SU2 factors_SU2
    (regsOf fields_SU2 (List.map Prod.snd ([(true, regsV 3)] : List (Bool × List Reg)))) = true := by decide +kernel

theorem orthonormal_SU2_1ch_doublet : AllOrthonormal op_SU2_1ch_doublet :=
  allOrthonormal_of (ex := [[]]) plan_ok_SU2_1ch_doublet (runOk_holds run_ok_SU2_1ch_doublet) (by decide)
    (usOk_V 3 rfl (by norm_num) usOk_nil) (by simp) rfl factorsOf_SU2

theorem plan_ok_SU2_2ch_doublet : planOk op_SU2_2ch_doublet plan_SU2_2ch_doublet = true := by decide +kernel

theorem run_ok_SU2_2ch_doublet : runOk op_SU2_2ch_doublet plan_SU2_2ch_doublet fields_SU2 factors_SU2
    (regsOf fields_SU2 (List.map Prod.snd ([(true, regsV 4)] : List (Bool × List Reg)))) = true := by decide +kernel

theorem orthonormal_SU2_2ch_doublet : AllOrthonormal op_SU2_2ch_doublet :=
  allOrthonormal_of (ex := [[]]) plan_ok_SU2_2ch_doublet (runOk_holds run_ok_SU2_2ch_doublet) (by decide)
    (usOk_V 4 rfl (by norm_num) usOk_nil) (by simp) rfl factorsOf_SU2

theorem plan_ok_U1_1ch_doublet : planOk op_U1_1ch_doublet plan_U1_1ch_doublet = true := by decide +kernel

theorem run_ok_U1_1ch_doublet : runOk op_U1_1ch_doublet plan_U1_1ch_doublet fields_U1 factors_U1
    (regsOf fields_U1 (List.map Prod.snd ([] : List (Bool × List Reg)))) = true := by decide +kernel

theorem orthonormal_U1_1ch_doublet : AllOrthonormal op_U1_1ch_doublet :=
  allOrthonormal_of (ex := []) plan_ok_U1_1ch_doublet (runOk_holds run_ok_U1_1ch_doublet) (by decide)
    (usOk_skip rfl usOk_nil) (by simp) rfl factorsOf_U1

theorem plan_ok_U1_2ch_doublet : planOk op_U1_2ch_doublet plan_U1_2ch_doublet = true := by decide +kernel

theorem run_ok_U1_2ch_doublet : runOk op_U1_2ch_doublet plan_U1_2ch_doublet fields_U1 factors_U1
    (regsOf fields_U1 (List.map Prod.snd ([] : List (Bool × List Reg)))) = true := by decide +kernel

theorem orthonormal_U1_2ch_doublet : AllOrthonormal op_U1_2ch_doublet :=
  allOrthonormal_of (ex := []) plan_ok_U1_2ch_doublet (runOk_holds run_ok_U1_2ch_doublet) (by decide)
    (usOk_skip rfl usOk_nil) (by simp) rfl factorsOf_U1

theorem plan_ok_U1_3ch_doublet : planOk op_U1_3ch_doublet plan_U1_3ch_doublet = true := by decide +kernel

theorem run_ok_U1_3ch_doublet : runOk op_U1_3ch_doublet plan_U1_3ch_doublet fields_U1 factors_U1
    (regsOf fields_U1 (List.map Prod.snd ([] : List (Bool × List Reg)))) = true := by decide +kernel

theorem orthonormal_U1_3ch_doublet : AllOrthonormal op_U1_3ch_doublet :=
  allOrthonormal_of (ex := []) plan_ok_U1_3ch_doublet (runOk_holds run_ok_U1_3ch_doublet) (by decide)
    (usOk_skip rfl usOk_nil) (by simp) rfl factorsOf_U1

end Verif.Coef
