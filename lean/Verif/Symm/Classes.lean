import Verif.Symm.Model
import Verif.Symm.Tables
/-!
# The built-in symmetry classes

Each `def fields_X` describes the quantum numbers (`initInvar`), the coupling
test, the multiplicity and the admissibility condition of class `SymmetryX`,
with the lines of `c++/symmetry/sym-X-impl.hpp` it models.
-/

namespace Verif.Symm
open Verif.Invar (QnType)

private abbrev charge (n : String) : Field := ⟨n, .additive, .u1, .one, .any⟩
private abbrev spin (n : String) : Field := ⟨n, .additive, .su2, .val, .pos⟩
private abbrev parity (n : String) : Field := ⟨n, .multiplicative, .z2, .one, .any⟩
private abbrev free (n : String) : Field := ⟨n, .additive, .none, .one, .any⟩
private abbrev c3 (n : String) : Field := ⟨n, .mod3, .c3, .one, .any⟩
private abbrev angmom (n : String) : Field := ⟨n, .additive, .su2T, .twiceAddOne, .nonneg⟩

/-- `sym-DBLISOSZ-impl.hpp:13-39`. -/
def fields_DBLISOSZ := [spin "II1", spin "II2", charge "SSZ"]
/-- `sym-DBLQSZ-impl.hpp:13-34`; `mult`, `Invar_allowed` not overridden. -/
def fields_DBLQSZ := [charge "Q1", charge "Q2", charge "SSZ"]
/-- `sym-DBLSU2-impl.hpp:13-29`. -/
def fields_DBLSU2 := [spin "II1", spin "II2"]
/-- `sym-ISO-impl.hpp:11-34`, shared by `SymmetryISO` and `SymmetryISO2`. -/
def fields_ISO := [spin "II", spin "SS"]
/-- `sym-ISOLR-impl.hpp:10-32`, shared by `SymmetryISOLR` and `SymmetryISO2LR`. -/
def fields_ISOLR := [spin "II", spin "SS", parity "P"]
/-- `sym-ISOSZ-impl.hpp:12-34`. -/
def fields_ISOSZ := [spin "II", charge "SSZ"]
/-- `sym-ISOSZLR-impl.hpp:12-32`; `Invar_allowed` is not overridden. -/
def fields_ISOSZLR : List Field := [⟨"II", .additive, .su2, .val, .any⟩, charge "SSZ", parity "P"]
/-- `sym-NONE-impl.hpp:12-16`; `triangle_inequality` is not overridden. -/
def fields_NONE := [free "x"]
/-- `sym-P-impl.hpp:13-38`. -/
def fields_P := [parity "P"]
/-- `sym-PP-impl.hpp:12-32`. -/
def fields_PP := [parity "Pa", parity "Pb"]
/-- `sym-QJ-impl.hpp:15-32`. -/
def fields_QJ := [charge "Q", spin "JJ"]
/-- `sym-QS-impl.hpp:13-27`. -/
def fields_QS := [charge "Q", spin "SS"]
/-- `sym-QSC3-impl.hpp:13-31`. -/
def fields_QSC3 := [charge "Q", spin "SS", c3 "P"]
/-- `sym-QSLR-impl.hpp:13-31`. -/
def fields_QSLR := [charge "Q", spin "SS", parity "P"]
/-- `sym-QST-impl.hpp:13-33`. -/
def fields_QST := [charge "Q", spin "SS", angmom "T"]
/-- `sym-QSTZ-impl.hpp:13-29`. -/
def fields_QSTZ := [charge "Q", spin "SS", charge "TZ"]
/-- `sym-QSZ-impl.hpp:13-30`. -/
def fields_QSZ := [charge "Q", charge "SSZ"]
/-- `sym-QSZLR-impl.hpp:13-33`. -/
def fields_QSZLR := [charge "Q", charge "SSZ", parity "P"]
/-- `sym-QSZTZ-impl.hpp:12-24`. -/
def fields_QSZTZ := [charge "Q", charge "SZ", charge "TZ"]
/-- `sym-SL-impl.hpp:13-17`; `triangle_inequality` is not overridden. -/
def fields_SL := [free "Q"]
/-- `sym-SL3-impl.hpp:13-19`; `triangle_inequality` is not overridden. -/
def fields_SL3 := [free "Q1", free "Q2", free "Q3"]
/-- `sym-SPSU2-impl.hpp:13-26`. -/
def fields_SPSU2 := [spin "SS"]
/-- `sym-SPSU2C3-impl.hpp:13-26`. -/
def fields_SPSU2C3 := [spin "SS", c3 "P"]
/-- `sym-SPSU2LR-impl.hpp:13-26`. -/
def fields_SPSU2LR := [spin "SS", parity "P"]
/-- `sym-SPSU2T-impl.hpp:13-32`. -/
def fields_SPSU2T := [spin "SS", angmom "T"]
/-- `sym-SPU1-impl.hpp:13-27`. -/
def fields_SPU1 := [charge "SSZ"]
/-- `sym-SPU1LR-impl.hpp:13-31`. -/
def fields_SPU1LR := [charge "SSZ", parity "P"]
/-- `sym-SU2-impl.hpp:13-29`. -/
def fields_SU2 := [spin "II"]
/-- `sym-U1-impl.hpp:13-19`. -/
def fields_U1 := [charge "Q"]

/-- A built-in symmetry: the class name, the number of channels of the table
and the object after `load()`. -/
structure Builtin where
  symtype : String
  channels : Nat
  sym : Symmetry

/-- All tables named in the `load()` functions of the symmetry classes
(`switch (P.channels)` in each `sym-*-impl.hpp`).  With `P.substeps` the
one-channel table of the class is used (`sym-QS-impl.hpp:50-53`). -/
def builtins : List Builtin := [
  ⟨"DBLISOSZ", 2, fields_DBLISOSZ, tab_DBLISOSZ_2ch⟩,
  ⟨"DBLQSZ", 2, fields_DBLQSZ, tab_DBLQSZ_2ch⟩,
  ⟨"DBLSU2", 2, fields_DBLSU2, tab_DBLSU2_2ch⟩,
  ⟨"ISO", 1, fields_ISO, tab_ISO_1ch⟩,
  ⟨"ISO", 2, fields_ISO, tab_ISO_2ch⟩,
  ⟨"ISO", 3, fields_ISO, tab_ISO_3ch⟩,
  ⟨"ISO2", 1, fields_ISO, tab_ISO2_1ch⟩,
  ⟨"ISO2", 2, fields_ISO, tab_ISO2_2ch⟩,
  ⟨"ISOLR", 2, fields_ISOLR, tab_ISOLR_2ch⟩,
  ⟨"ISO2LR", 2, fields_ISOLR, tab_ISO2LR_2ch⟩,
  ⟨"ISOSZ", 1, fields_ISOSZ, tab_ISOSZ_1ch⟩,
  ⟨"ISOSZ", 2, fields_ISOSZ, tab_ISOSZ_2ch⟩,
  ⟨"ISOSZLR", 2, fields_ISOSZLR, tab_ISOSZLR_2ch⟩,
  ⟨"NONE", 1, fields_NONE, tab_NONE_1ch⟩,
  ⟨"NONE", 2, fields_NONE, tab_NONE_2ch⟩,
  ⟨"P", 1, fields_P, tab_P_1ch⟩,
  ⟨"P", 2, fields_P, tab_P_2ch⟩,
  ⟨"PP", 2, fields_PP, tab_PP_2ch⟩,
  ⟨"QJ", 3, fields_QJ, tab_QJ_3ch⟩,
  ⟨"QS", 1, fields_QS, tab_QS_1ch⟩,
  ⟨"QS", 2, fields_QS, tab_QS_2ch⟩,
  ⟨"QS", 3, fields_QS, tab_QS_3ch⟩,
  ⟨"QS", 4, fields_QS, tab_QS_4ch⟩,
  ⟨"QSC3", 3, fields_QSC3, tab_QSC3_3ch⟩,
  ⟨"QSLR", 2, fields_QSLR, tab_QSLR_2ch⟩,
  ⟨"QST", 3, fields_QST, tab_QST_3ch⟩,
  ⟨"QSTZ", 3, fields_QSTZ, tab_QSTZ_3ch⟩,
  ⟨"QSZ", 1, fields_QSZ, tab_QSZ_1ch⟩,
  ⟨"QSZ", 2, fields_QSZ, tab_QSZ_2ch⟩,
  ⟨"QSZ", 3, fields_QSZ, tab_QSZ_3ch⟩,
  ⟨"QSZLR", 2, fields_QSZLR, tab_QSZLR_2ch⟩,
  ⟨"QSZTZ", 3, fields_QSZTZ, tab_QSZTZ_3ch⟩,
  ⟨"SL", 1, fields_SL, tab_SL_1ch⟩,
  ⟨"SL", 2, fields_SL, tab_SL_2ch⟩,
  ⟨"SL", 3, fields_SL, tab_SL_3ch⟩,
  ⟨"SL3", 3, fields_SL3, tab_SL3_3ch⟩,
  ⟨"SPSU2", 1, fields_SPSU2, tab_SPSU2_1ch⟩,
  ⟨"SPSU2", 2, fields_SPSU2, tab_SPSU2_2ch⟩,
  ⟨"SPSU2", 3, fields_SPSU2, tab_SPSU2_3ch⟩,
  ⟨"SPSU2C3", 3, fields_SPSU2C3, tab_SPSU2C3_3ch⟩,
  ⟨"SPSU2LR", 2, fields_SPSU2LR, tab_SPSU2LR_2ch⟩,
  ⟨"SPSU2T", 3, fields_SPSU2T, tab_SPSU2T_3ch⟩,
  ⟨"SPU1", 1, fields_SPU1, tab_SPU1_1ch⟩,
  ⟨"SPU1", 2, fields_SPU1, tab_SPU1_2ch⟩,
  ⟨"SPU1LR", 1, fields_SPU1LR, tab_SPU1LR_1ch⟩,
  ⟨"SPU1LR", 2, fields_SPU1LR, tab_SPU1LR_2ch⟩,
  ⟨"SU2", 1, fields_SU2, tab_SU2_1ch⟩,
  ⟨"SU2", 2, fields_SU2, tab_SU2_2ch⟩,
  ⟨"U1", 1, fields_U1, tab_U1_1ch⟩,
  ⟨"U1", 2, fields_U1, tab_U1_2ch⟩,
  ⟨"U1", 3, fields_U1, tab_U1_3ch⟩]

/-- `Params::set_channels_and_combs`, `c++/params.hpp:578-582`: `2` states per
site for the spinless types `SL`, `SL3`, else `4`; `combs` is the power for all
channels (without `substeps`). -/
def paramsCombs (symtype : String) (channels : Nat) : Nat :=
  let spin := if symtype = "SL" ∨ symtype = "SL3" then 1 else 2
  (2 ^ spin) ^ channels

end Verif.Symm
