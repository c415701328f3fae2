import Verif.Symm.Count
/-!
# Site multiplets encoded by each table (generated)

Generated by `scripts/gen_decomp.py`.  Each theorem is a kernel evaluation over the
whole (finite) table; it is lifted to all labels by `sum_table`.
-/

namespace Verif.Symm

def mul_DBLISOSZ_2ch : List Verif.Invar.Label := [
  [1, 1, -2], [1, 1, 0], [1, 1, 0], [1, 1, 2], [1, 2, -1], [1, 2, 1], [2, 1, -1], [2, 1, 1],
  [2, 2, 0]]

theorem dec_DBLISOSZ_2ch : decomposes ⟨fields_DBLISOSZ, tab_DBLISOSZ_2ch⟩ mul_DBLISOSZ_2ch = true := by decide +kernel

def mul_DBLQSZ_2ch : List Verif.Invar.Label := [
  [-1, -1, 0], [-1, 0, -1], [-1, 0, 1], [-1, 1, 0], [0, -1, -1], [0, -1, 1], [0, 0, -2], [0, 0, 0],
  [0, 0, 0], [0, 0, 2], [0, 1, -1], [0, 1, 1], [1, -1, 0], [1, 0, -1], [1, 0, 1], [1, 1, 0]]

theorem dec_DBLQSZ_2ch : decomposes ⟨fields_DBLQSZ, tab_DBLQSZ_2ch⟩ mul_DBLQSZ_2ch = true := by decide +kernel

def mul_DBLSU2_2ch : List Verif.Invar.Label := [
  [1, 1], [1, 1], [1, 1], [1, 1], [1, 2], [1, 2], [2, 1], [2, 1], [2, 2]]

theorem dec_DBLSU2_2ch : decomposes ⟨fields_DBLSU2, tab_DBLSU2_2ch⟩ mul_DBLSU2_2ch = true := by decide +kernel

def mul_ISO_1ch : List Verif.Invar.Label := [
  [2, 1], [1, 2]]

theorem dec_ISO_1ch : decomposes ⟨fields_ISO, tab_ISO_1ch⟩ mul_ISO_1ch = true := by decide +kernel

def mul_ISO_2ch : List Verif.Invar.Label := [
  [3, 1], [2, 2], [2, 2], [1, 3], [1, 1], [1, 1]]

theorem dec_ISO_2ch : decomposes ⟨fields_ISO, tab_ISO_2ch⟩ mul_ISO_2ch = true := by decide +kernel

def mul_ISO_3ch : List Verif.Invar.Label := [
  [4, 1], [3, 2], [3, 2], [3, 2], [2, 3], [2, 3], [2, 3], [2, 1], [2, 1], [2, 1], [2, 1], [2, 1],
  [1, 4], [1, 2], [1, 2], [1, 2], [1, 2], [1, 2]]

theorem dec_ISO_3ch : decomposes ⟨fields_ISO, tab_ISO_3ch⟩ mul_ISO_3ch = true := by decide +kernel

def mul_ISO2_1ch : List Verif.Invar.Label := [
  [2, 1], [1, 2]]

theorem dec_ISO2_1ch : decomposes ⟨fields_ISO, tab_ISO2_1ch⟩ mul_ISO2_1ch = true := by decide +kernel

def mul_ISO2_2ch : List Verif.Invar.Label := [
  [3, 1], [2, 2], [2, 2], [1, 3], [1, 1], [1, 1]]

theorem dec_ISO2_2ch : decomposes ⟨fields_ISO, tab_ISO2_2ch⟩ mul_ISO2_2ch = true := by decide +kernel

def mul_ISOLR_2ch : List Verif.Invar.Label := [
  [1, 1, -1], [1, 1, 1], [1, 3, -1], [2, 2, -1], [2, 2, 1], [3, 1, 1]]

theorem dec_ISOLR_2ch : decomposes ⟨fields_ISOLR, tab_ISOLR_2ch⟩ mul_ISOLR_2ch = true := by decide +kernel

def mul_ISO2LR_2ch : List Verif.Invar.Label := [
  [1, 1, 1], [1, 1, 1], [1, 3, -1], [2, 2, -1], [2, 2, 1], [3, 1, 1]]

theorem dec_ISO2LR_2ch : decomposes ⟨fields_ISOLR, tab_ISO2LR_2ch⟩ mul_ISO2LR_2ch = true := by decide +kernel

def mul_ISOSZ_1ch : List Verif.Invar.Label := [
  [2, 0], [1, 1], [1, -1]]

theorem dec_ISOSZ_1ch : decomposes ⟨fields_ISOSZ, tab_ISOSZ_1ch⟩ mul_ISOSZ_1ch = true := by decide +kernel

def mul_ISOSZ_2ch : List Verif.Invar.Label := [
  [3, 0], [2, 1], [2, 1], [2, -1], [2, -1], [1, 2], [1, 0], [1, 0], [1, 0], [1, -2]]

theorem dec_ISOSZ_2ch : decomposes ⟨fields_ISOSZ, tab_ISOSZ_2ch⟩ mul_ISOSZ_2ch = true := by decide +kernel

def mul_ISOSZLR_2ch : List Verif.Invar.Label := [
  [1, -2, -1], [1, 0, -1], [1, 0, -1], [1, 0, 1], [1, 2, -1], [2, -1, -1], [2, -1, 1], [2, 1, -1],
  [2, 1, 1], [3, 0, 1]]

theorem dec_ISOSZLR_2ch : decomposes ⟨fields_ISOSZLR, tab_ISOSZLR_2ch⟩ mul_ISOSZLR_2ch = true := by decide +kernel

def mul_NONE_1ch : List Verif.Invar.Label := [
  [0], [0], [0], [0]]

theorem dec_NONE_1ch : decomposes ⟨fields_NONE, tab_NONE_1ch⟩ mul_NONE_1ch = true := by decide +kernel

def mul_NONE_2ch : List Verif.Invar.Label := [
  [0], [0], [0], [0], [0], [0], [0], [0], [0], [0], [0], [0], [0], [0], [0], [0]]

theorem dec_NONE_2ch : decomposes ⟨fields_NONE, tab_NONE_2ch⟩ mul_NONE_2ch = true := by decide +kernel

def mul_P_1ch : List Verif.Invar.Label := [
  [-1], [-1], [1], [1]]

theorem dec_P_1ch : decomposes ⟨fields_P, tab_P_1ch⟩ mul_P_1ch = true := by decide +kernel

def mul_P_2ch : List Verif.Invar.Label := [
  [-1], [-1], [-1], [-1], [-1], [-1], [-1], [-1], [1], [1], [1], [1], [1], [1], [1], [1]]

theorem dec_P_2ch : decomposes ⟨fields_P, tab_P_2ch⟩ mul_P_2ch = true := by decide +kernel

def mul_PP_2ch : List Verif.Invar.Label := [
  [-1, -1], [-1, -1], [-1, -1], [-1, -1], [-1, 1], [-1, 1], [-1, 1], [-1, 1], [1, -1], [1, -1],
  [1, -1], [1, -1], [1, 1], [1, 1], [1, 1], [1, 1]]

theorem dec_PP_2ch : decomposes ⟨fields_PP, tab_PP_2ch⟩ mul_PP_2ch = true := by decide +kernel

def mul_QJ_3ch : List Verif.Invar.Label := [
  [-3, 1], [-2, 2], [-2, 4], [-1, 1], [-1, 1], [-1, 3], [-1, 5], [-1, 5], [0, 2], [0, 4], [0, 4],
  [0, 4], [0, 6], [1, 1], [1, 1], [1, 3], [1, 5], [1, 5], [2, 2], [2, 4], [3, 1]]

theorem dec_QJ_3ch : decomposes ⟨fields_QJ, tab_QJ_3ch⟩ mul_QJ_3ch = true := by decide +kernel

def mul_QS_1ch : List Verif.Invar.Label := [
  [-1, 1], [0, 2], [1, 1]]

theorem dec_QS_1ch : decomposes ⟨fields_QS, tab_QS_1ch⟩ mul_QS_1ch = true := by decide +kernel

def mul_QS_2ch : List Verif.Invar.Label := [
  [-2, 1], [-1, 2], [-1, 2], [0, 1], [0, 1], [0, 1], [0, 3], [1, 2], [1, 2], [2, 1]]

theorem dec_QS_2ch : decomposes ⟨fields_QS, tab_QS_2ch⟩ mul_QS_2ch = true := by decide +kernel

def mul_QS_3ch : List Verif.Invar.Label := [
  [-3, 1], [-2, 2], [-2, 2], [-2, 2], [-1, 1], [-1, 1], [-1, 1], [-1, 1], [-1, 1], [-1, 1],
  [-1, 3], [-1, 3], [-1, 3], [0, 2], [0, 2], [0, 2], [0, 2], [0, 2], [0, 2], [0, 2], [0, 2],
  [0, 4], [1, 1], [1, 1], [1, 1], [1, 1], [1, 1], [1, 1], [1, 3], [1, 3], [1, 3], [2, 2], [2, 2],
  [2, 2], [3, 1]]

theorem dec_QS_3ch : decomposes ⟨fields_QS, tab_QS_3ch⟩ mul_QS_3ch = true := by decide +kernel

def mul_QS_4ch : List Verif.Invar.Label := [
  [-4, 1], [-3, 2], [-3, 2], [-3, 2], [-3, 2], [-2, 1], [-2, 1], [-2, 1], [-2, 1], [-2, 1],
  [-2, 1], [-2, 1], [-2, 1], [-2, 1], [-2, 1], [-2, 3], [-2, 3], [-2, 3], [-2, 3], [-2, 3],
  [-2, 3], [-1, 2], [-1, 2], [-1, 2], [-1, 2], [-1, 2], [-1, 2], [-1, 2], [-1, 2], [-1, 2],
  [-1, 2], [-1, 2], [-1, 2], [-1, 2], [-1, 2], [-1, 2], [-1, 2], [-1, 2], [-1, 2], [-1, 2],
  [-1, 2], [-1, 4], [-1, 4], [-1, 4], [-1, 4], [0, 1], [0, 1], [0, 1], [0, 1], [0, 1], [0, 1],
  [0, 1], [0, 1], [0, 1], [0, 1], [0, 1], [0, 1], [0, 1], [0, 1], [0, 1], [0, 1], [0, 1], [0, 1],
  [0, 1], [0, 1], [0, 3], [0, 3], [0, 3], [0, 3], [0, 3], [0, 3], [0, 3], [0, 3], [0, 3], [0, 3],
  [0, 3], [0, 3], [0, 3], [0, 3], [0, 3], [0, 5], [1, 2], [1, 2], [1, 2], [1, 2], [1, 2], [1, 2],
  [1, 2], [1, 2], [1, 2], [1, 2], [1, 2], [1, 2], [1, 2], [1, 2], [1, 2], [1, 2], [1, 2], [1, 2],
  [1, 2], [1, 2], [1, 4], [1, 4], [1, 4], [1, 4], [2, 1], [2, 1], [2, 1], [2, 1], [2, 1], [2, 1],
  [2, 1], [2, 1], [2, 1], [2, 1], [2, 3], [2, 3], [2, 3], [2, 3], [2, 3], [2, 3], [3, 2], [3, 2],
  [3, 2], [3, 2], [4, 1]]

theorem dec_QS_4ch : decomposes ⟨fields_QS, tab_QS_4ch⟩ mul_QS_4ch = true := by decide +kernel

def mul_QSC3_3ch : List Verif.Invar.Label := [
  [-3, 1, 0], [-2, 2, 0], [-2, 2, 1], [-2, 2, 2], [-1, 1, 0], [-1, 1, 0], [-1, 1, 1], [-1, 1, 1],
  [-1, 1, 2], [-1, 1, 2], [-1, 3, 0], [-1, 3, 1], [-1, 3, 2], [0, 2, 0], [0, 2, 0], [0, 2, 1],
  [0, 2, 1], [0, 2, 1], [0, 2, 2], [0, 2, 2], [0, 2, 2], [0, 4, 0], [1, 1, 0], [1, 1, 0],
  [1, 1, 1], [1, 1, 1], [1, 1, 2], [1, 1, 2], [1, 3, 0], [1, 3, 1], [1, 3, 2], [2, 2, 0],
  [2, 2, 1], [2, 2, 2], [3, 1, 0]]

theorem dec_QSC3_3ch : decomposes ⟨fields_QSC3, tab_QSC3_3ch⟩ mul_QSC3_3ch = true := by decide +kernel

def mul_QSLR_2ch : List Verif.Invar.Label := [
  [-2, 1, 1], [-1, 2, -1], [-1, 2, 1], [0, 1, -1], [0, 1, 1], [0, 1, 1], [0, 3, -1], [1, 2, -1],
  [1, 2, 1], [2, 1, 1]]

theorem dec_QSLR_2ch : decomposes ⟨fields_QSLR, tab_QSLR_2ch⟩ mul_QSLR_2ch = true := by decide +kernel

def mul_QST_3ch : List Verif.Invar.Label := [
  [-3, 1, 0], [-2, 2, 1], [-1, 1, 0], [-1, 1, 2], [-1, 3, 1], [0, 2, 1], [0, 2, 2], [0, 4, 0],
  [1, 1, 0], [1, 1, 2], [1, 3, 1], [2, 2, 1], [3, 1, 0]]

theorem dec_QST_3ch : decomposes ⟨fields_QST, tab_QST_3ch⟩ mul_QST_3ch = true := by decide +kernel

def mul_QSTZ_3ch : List Verif.Invar.Label := [
  [-3, 1, 0], [-2, 2, -1], [-2, 2, 0], [-2, 2, 1], [-1, 1, -2], [-1, 1, -1], [-1, 1, 0],
  [-1, 1, 0], [-1, 1, 1], [-1, 1, 2], [-1, 3, -1], [-1, 3, 0], [-1, 3, 1], [0, 2, -2], [0, 2, -1],
  [0, 2, -1], [0, 2, 0], [0, 2, 0], [0, 2, 1], [0, 2, 1], [0, 2, 2], [0, 4, 0], [1, 1, -2],
  [1, 1, -1], [1, 1, 0], [1, 1, 0], [1, 1, 1], [1, 1, 2], [1, 3, -1], [1, 3, 0], [1, 3, 1],
  [2, 2, -1], [2, 2, 0], [2, 2, 1], [3, 1, 0]]

theorem dec_QSTZ_3ch : decomposes ⟨fields_QSTZ, tab_QSTZ_3ch⟩ mul_QSTZ_3ch = true := by decide +kernel

def mul_QSZ_1ch : List Verif.Invar.Label := [
  [-1, 0], [0, -1], [0, 1], [1, 0]]

theorem dec_QSZ_1ch : decomposes ⟨fields_QSZ, tab_QSZ_1ch⟩ mul_QSZ_1ch = true := by decide +kernel

def mul_QSZ_2ch : List Verif.Invar.Label := [
  [-2, 0], [-1, -1], [-1, -1], [-1, 1], [-1, 1], [0, -2], [0, 0], [0, 0], [0, 0], [0, 0], [0, 2],
  [1, -1], [1, -1], [1, 1], [1, 1], [2, 0]]

theorem dec_QSZ_2ch : decomposes ⟨fields_QSZ, tab_QSZ_2ch⟩ mul_QSZ_2ch = true := by decide +kernel

def mul_QSZ_3ch : List Verif.Invar.Label := [
  [-3, 0], [-2, -1], [-2, -1], [-2, -1], [-2, 1], [-2, 1], [-2, 1], [-1, -2], [-1, -2], [-1, -2],
  [-1, 0], [-1, 0], [-1, 0], [-1, 0], [-1, 0], [-1, 0], [-1, 0], [-1, 0], [-1, 0], [-1, 2],
  [-1, 2], [-1, 2], [0, -3], [0, -1], [0, -1], [0, -1], [0, -1], [0, -1], [0, -1], [0, -1],
  [0, -1], [0, -1], [0, 1], [0, 1], [0, 1], [0, 1], [0, 1], [0, 1], [0, 1], [0, 1], [0, 1], [0, 3],
  [1, -2], [1, -2], [1, -2], [1, 0], [1, 0], [1, 0], [1, 0], [1, 0], [1, 0], [1, 0], [1, 0],
  [1, 0], [1, 2], [1, 2], [1, 2], [2, -1], [2, -1], [2, -1], [2, 1], [2, 1], [2, 1], [3, 0]]

theorem dec_QSZ_3ch : decomposes ⟨fields_QSZ, tab_QSZ_3ch⟩ mul_QSZ_3ch = true := by decide +kernel

def mul_QSZLR_2ch : List Verif.Invar.Label := [
  [-2, 0, 1], [-1, -1, -1], [-1, -1, 1], [-1, 1, -1], [-1, 1, 1], [0, -2, -1], [0, 0, -1],
  [0, 0, -1], [0, 0, 1], [0, 0, 1], [0, 2, -1], [1, -1, -1], [1, -1, 1], [1, 1, -1], [1, 1, 1],
  [2, 0, 1]]

theorem dec_QSZLR_2ch : decomposes ⟨fields_QSZLR, tab_QSZLR_2ch⟩ mul_QSZLR_2ch = true := by decide +kernel

def mul_QSZTZ_3ch : List Verif.Invar.Label := [
  [-3, 0, 0], [-2, -1, -1], [-2, -1, 0], [-2, -1, 1], [-2, 1, -1], [-2, 1, 0], [-2, 1, 1],
  [-1, -2, -1], [-1, -2, 0], [-1, -2, 1], [-1, 0, -2], [-1, 0, -1], [-1, 0, -1], [-1, 0, 0],
  [-1, 0, 0], [-1, 0, 0], [-1, 0, 1], [-1, 0, 1], [-1, 0, 2], [-1, 2, -1], [-1, 2, 0], [-1, 2, 1],
  [0, -3, 0], [0, -1, -2], [0, -1, -1], [0, -1, -1], [0, -1, 0], [0, -1, 0], [0, -1, 0],
  [0, -1, 1], [0, -1, 1], [0, -1, 2], [0, 1, -2], [0, 1, -1], [0, 1, -1], [0, 1, 0], [0, 1, 0],
  [0, 1, 0], [0, 1, 1], [0, 1, 1], [0, 1, 2], [0, 3, 0], [1, -2, -1], [1, -2, 0], [1, -2, 1],
  [1, 0, -2], [1, 0, -1], [1, 0, -1], [1, 0, 0], [1, 0, 0], [1, 0, 0], [1, 0, 1], [1, 0, 1],
  [1, 0, 2], [1, 2, -1], [1, 2, 0], [1, 2, 1], [2, -1, -1], [2, -1, 0], [2, -1, 1], [2, 1, -1],
  [2, 1, 0], [2, 1, 1], [3, 0, 0]]

theorem dec_QSZTZ_3ch : decomposes ⟨fields_QSZTZ, tab_QSZTZ_3ch⟩ mul_QSZTZ_3ch = true := by decide +kernel

def mul_SL_1ch : List Verif.Invar.Label := [
  [-1], [0]]

theorem dec_SL_1ch : decomposes ⟨fields_SL, tab_SL_1ch⟩ mul_SL_1ch = true := by decide +kernel

def mul_SL_2ch : List Verif.Invar.Label := [
  [-2], [-1], [-1], [0]]

theorem dec_SL_2ch : decomposes ⟨fields_SL, tab_SL_2ch⟩ mul_SL_2ch = true := by decide +kernel

def mul_SL_3ch : List Verif.Invar.Label := [
  [-3], [-2], [-2], [-2], [-1], [-1], [-1], [0]]

theorem dec_SL_3ch : decomposes ⟨fields_SL, tab_SL_3ch⟩ mul_SL_3ch = true := by decide +kernel

def mul_SL3_3ch : List Verif.Invar.Label := [
  [-1, -1, -1], [-1, -1, 0], [-1, 0, -1], [-1, 0, 0], [0, -1, -1], [0, -1, 0], [0, 0, -1],
  [0, 0, 0]]

theorem dec_SL3_3ch : decomposes ⟨fields_SL3, tab_SL3_3ch⟩ mul_SL3_3ch = true := by decide +kernel

def mul_SPSU2_1ch : List Verif.Invar.Label := [
  [1], [1], [2]]

theorem dec_SPSU2_1ch : decomposes ⟨fields_SPSU2, tab_SPSU2_1ch⟩ mul_SPSU2_1ch = true := by decide +kernel

def mul_SPSU2_2ch : List Verif.Invar.Label := [
  [1], [1], [1], [1], [1], [2], [2], [2], [2], [3]]

theorem dec_SPSU2_2ch : decomposes ⟨fields_SPSU2, tab_SPSU2_2ch⟩ mul_SPSU2_2ch = true := by decide +kernel

def mul_SPSU2_3ch : List Verif.Invar.Label := [
  [1], [1], [1], [1], [1], [1], [1], [1], [1], [1], [1], [1], [1], [1], [2], [2], [2], [2], [2],
  [2], [2], [2], [2], [2], [2], [2], [2], [2], [3], [3], [3], [3], [3], [3], [4]]

theorem dec_SPSU2_3ch : decomposes ⟨fields_SPSU2, tab_SPSU2_3ch⟩ mul_SPSU2_3ch = true := by decide +kernel

def mul_SPSU2C3_3ch : List Verif.Invar.Label := [
  [1, 0], [1, 0], [1, 0], [1, 0], [1, 0], [1, 0], [1, 1], [1, 1], [1, 1], [1, 1], [1, 2], [1, 2],
  [1, 2], [1, 2], [2, 0], [2, 0], [2, 0], [2, 0], [2, 1], [2, 1], [2, 1], [2, 1], [2, 1], [2, 2],
  [2, 2], [2, 2], [2, 2], [2, 2], [3, 0], [3, 0], [3, 1], [3, 1], [3, 2], [3, 2], [4, 0]]

theorem dec_SPSU2C3_3ch : decomposes ⟨fields_SPSU2C3, tab_SPSU2C3_3ch⟩ mul_SPSU2C3_3ch = true := by decide +kernel

def mul_SPSU2LR_2ch : List Verif.Invar.Label := [
  [1, -1], [1, 1], [1, 1], [1, 1], [1, 1], [2, -1], [2, -1], [2, 1], [2, 1], [3, -1]]

theorem dec_SPSU2LR_2ch : decomposes ⟨fields_SPSU2LR, tab_SPSU2LR_2ch⟩ mul_SPSU2LR_2ch = true := by decide +kernel

def mul_SPSU2T_3ch : List Verif.Invar.Label := [
  [1, 0], [1, 0], [1, 0], [1, 0], [1, 2], [1, 2], [2, 1], [2, 1], [2, 1], [2, 2], [3, 1], [3, 1],
  [4, 0]]

theorem dec_SPSU2T_3ch : decomposes ⟨fields_SPSU2T, tab_SPSU2T_3ch⟩ mul_SPSU2T_3ch = true := by decide +kernel

def mul_SPU1_1ch : List Verif.Invar.Label := [
  [-1], [0], [0], [1]]

theorem dec_SPU1_1ch : decomposes ⟨fields_SPU1, tab_SPU1_1ch⟩ mul_SPU1_1ch = true := by decide +kernel

def mul_SPU1_2ch : List Verif.Invar.Label := [
  [-2], [-1], [-1], [-1], [-1], [0], [0], [0], [0], [0], [0], [1], [1], [1], [1], [2]]

theorem dec_SPU1_2ch : decomposes ⟨fields_SPU1, tab_SPU1_2ch⟩ mul_SPU1_2ch = true := by decide +kernel

def mul_SPU1LR_1ch : List Verif.Invar.Label := [
  [-1, 1], [0, 1], [0, 1], [1, 1]]

theorem dec_SPU1LR_1ch : decomposes ⟨fields_SPU1LR, tab_SPU1LR_1ch⟩ mul_SPU1LR_1ch = true := by decide +kernel

def mul_SPU1LR_2ch : List Verif.Invar.Label := [
  [-2, -1], [-1, -1], [-1, -1], [-1, 1], [-1, 1], [0, -1], [0, -1], [0, 1], [0, 1], [0, 1], [0, 1],
  [1, -1], [1, -1], [1, 1], [1, 1], [2, -1]]

theorem dec_SPU1LR_2ch : decomposes ⟨fields_SPU1LR, tab_SPU1LR_2ch⟩ mul_SPU1LR_2ch = true := by decide +kernel

def mul_SU2_1ch : List Verif.Invar.Label := [
  [2], [1], [1]]

theorem dec_SU2_1ch : decomposes ⟨fields_SU2, tab_SU2_1ch⟩ mul_SU2_1ch = true := by decide +kernel

def mul_SU2_2ch : List Verif.Invar.Label := [
  [3], [2], [2], [2], [2], [1], [1], [1], [1], [1]]

theorem dec_SU2_2ch : decomposes ⟨fields_SU2, tab_SU2_2ch⟩ mul_SU2_2ch = true := by decide +kernel

def mul_U1_1ch : List Verif.Invar.Label := [
  [-1], [0], [0], [1]]

theorem dec_U1_1ch : decomposes ⟨fields_U1, tab_U1_1ch⟩ mul_U1_1ch = true := by decide +kernel

def mul_U1_2ch : List Verif.Invar.Label := [
  [-2], [-1], [-1], [-1], [-1], [0], [0], [0], [0], [0], [0], [1], [1], [1], [1], [2]]

theorem dec_U1_2ch : decomposes ⟨fields_U1, tab_U1_2ch⟩ mul_U1_2ch = true := by decide +kernel

def mul_U1_3ch : List Verif.Invar.Label := [
  [-3], [-2], [-2], [-2], [-2], [-2], [-2], [-1], [-1], [-1], [-1], [-1], [-1], [-1], [-1], [-1],
  [-1], [-1], [-1], [-1], [-1], [-1], [0], [0], [0], [0], [0], [0], [0], [0], [0], [0], [0], [0],
  [0], [0], [0], [0], [0], [0], [0], [0], [1], [1], [1], [1], [1], [1], [1], [1], [1], [1], [1],
  [1], [1], [1], [1], [2], [2], [2], [2], [2], [2], [3]]

theorem dec_U1_3ch : decomposes ⟨fields_U1, tab_U1_3ch⟩ mul_U1_3ch = true := by decide +kernel

/-- Every built-in table is the expansion of a list of site multiplets. -/
theorem builtins_decompose : ∀ b ∈ builtins, ∃ ms, decomposes b.sym ms = true := by
  simp only [builtins, List.forall_mem_cons, List.not_mem_nil, false_imp_iff, implies_true, and_true]
  exact ⟨⟨_, dec_DBLISOSZ_2ch⟩, ⟨_, dec_DBLQSZ_2ch⟩, ⟨_, dec_DBLSU2_2ch⟩, ⟨_, dec_ISO_1ch⟩, ⟨_, dec_ISO_2ch⟩, ⟨_, dec_ISO_3ch⟩, ⟨_, dec_ISO2_1ch⟩, ⟨_, dec_ISO2_2ch⟩, ⟨_, dec_ISOLR_2ch⟩, ⟨_, dec_ISO2LR_2ch⟩, ⟨_, dec_ISOSZ_1ch⟩, ⟨_, dec_ISOSZ_2ch⟩, ⟨_, dec_ISOSZLR_2ch⟩, ⟨_, dec_NONE_1ch⟩, ⟨_, dec_NONE_2ch⟩, ⟨_, dec_P_1ch⟩, ⟨_, dec_P_2ch⟩, ⟨_, dec_PP_2ch⟩, ⟨_, dec_QJ_3ch⟩, ⟨_, dec_QS_1ch⟩, ⟨_, dec_QS_2ch⟩, ⟨_, dec_QS_3ch⟩, ⟨_, dec_QS_4ch⟩, ⟨_, dec_QSC3_3ch⟩, ⟨_, dec_QSLR_2ch⟩, ⟨_, dec_QST_3ch⟩, ⟨_, dec_QSTZ_3ch⟩, ⟨_, dec_QSZ_1ch⟩, ⟨_, dec_QSZ_2ch⟩, ⟨_, dec_QSZ_3ch⟩, ⟨_, dec_QSZLR_2ch⟩, ⟨_, dec_QSZTZ_3ch⟩, ⟨_, dec_SL_1ch⟩, ⟨_, dec_SL_2ch⟩, ⟨_, dec_SL_3ch⟩, ⟨_, dec_SL3_3ch⟩, ⟨_, dec_SPSU2_1ch⟩, ⟨_, dec_SPSU2_2ch⟩, ⟨_, dec_SPSU2_3ch⟩, ⟨_, dec_SPSU2C3_3ch⟩, ⟨_, dec_SPSU2LR_2ch⟩, ⟨_, dec_SPSU2T_3ch⟩, ⟨_, dec_SPU1_1ch⟩, ⟨_, dec_SPU1_2ch⟩, ⟨_, dec_SPU1LR_1ch⟩, ⟨_, dec_SPU1LR_2ch⟩, ⟨_, dec_SU2_1ch⟩, ⟨_, dec_SU2_2ch⟩, ⟨_, dec_U1_1ch⟩, ⟨_, dec_U1_2ch⟩, ⟨_, dec_U1_3ch⟩⟩

end Verif.Symm
