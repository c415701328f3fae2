import Verif.Oper.Model
/-!
# The shipped operator recalculation tables, class QS

Generated by `scripts/gen_opers.py` from `c++/symmetry/nrg-recalc-*.hpp` and the
files they include from `c++/symmetry/coefnew`.
-/

namespace Verif.Oper
open Verif.Symm

/-- The label expressions in the operator tables of `QS`. -/
def labs_QS : List LabelExpr := [
  [.plus 1, .plus 0],
  [.plus 0, .plus 1],
  [.plus 0, .plus (-1)],
  [.plus (-1), .plus 0],
  [.plus (-1), .plus 2],
  [.plus (-2), .plus 1],
  [.plus (-1), .plus (-2)],
  [.plus (-2), .plus (-1)],
  [.plus 2, .plus 0],
  [.plus 1, .plus 1],
  [.plus 1, .plus (-1)],
  [.plus 0, .plus 0],
  [.plus 0, .plus 2],
  [.plus (-1), .plus 1],
  [.plus 0, .plus (-2)],
  [.plus (-1), .plus (-1)],
  [.plus (-1), .plus 3],
  [.plus (-2), .plus 0],
  [.plus (-2), .plus 2],
  [.plus (-3), .plus 1],
  [.plus (-1), .plus (-3)],
  [.plus (-2), .plus (-2)],
  [.plus (-3), .plus (-1)],
  [.plus 3, .plus 0],
  [.plus 2, .plus 1],
  [.plus 2, .plus (-1)],
  [.plus 1, .plus 2],
  [.plus 1, .plus (-2)],
  [.plus 0, .plus 3],
  [.plus 0, .plus (-3)],
  [.plus (-1), .plus 4],
  [.plus (-2), .plus 3],
  [.plus (-3), .plus 0],
  [.plus (-3), .plus 2],
  [.plus (-4), .plus 1],
  [.plus (-1), .plus (-4)],
  [.plus (-2), .plus (-3)],
  [.plus (-3), .plus (-2)],
  [.plus (-4), .plus (-1)],
  [.plus 4, .plus 0],
  [.plus 3, .plus 1],
  [.plus 3, .plus (-1)],
  [.plus 2, .plus 2],
  [.plus 2, .plus (-2)],
  [.plus 1, .plus 3],
  [.plus 1, .plus (-3)],
  [.plus 0, .plus 4],
  [.plus 0, .plus (-4)],
  [.plus (-1), .plus 5],
  [.plus (-2), .plus 4],
  [.plus (-3), .plus 3],
  [.plus (-4), .plus 0],
  [.plus (-4), .plus 2],
  [.plus (-5), .plus 1],
  [.plus (-1), .plus (-5)],
  [.plus (-2), .plus (-4)],
  [.plus (-3), .plus (-3)],
  [.plus (-4), .plus (-2)],
  [.plus (-5), .plus (-1)],
  [.plus 3, .plus 2],
  [.plus 2, .plus 3],
  [.plus 1, .plus 4],
  [.plus 0, .plus 5],
  [.plus 3, .plus (-2)],
  [.plus 2, .plus (-3)],
  [.plus 1, .plus (-4)],
  [.plus 0, .plus (-5)],
  [.plus 4, .plus 2],
  [.plus 3, .plus 3],
  [.plus 2, .plus 4],
  [.plus 1, .plus 5],
  [.plus 0, .plus 6],
  [.plus 4, .plus (-2)],
  [.plus 3, .plus (-3)],
  [.plus 2, .plus (-4)],
  [.plus 1, .plus (-5)],
  [.plus 0, .plus (-6)]]

/-- `recalc_doublet` in `nrg-recalc-QS.hpp:32-`, 1 channel(s): `qs-1ch-doubletp.dat`, `qs-1ch-doubletm.dat`. -/
def op_QS_1ch_doublet : OpTable where
  builtin := ⟨"QS", 1, fields_QS, tab_QS_1ch⟩
  kind := .doublet
  labs := labs_QS
  targets := [
    ⟨[.plus (-1), .plus 1], [1, 2], some [
      ⟨1, 1, 0, 1, 0⟩, ⟨2, 2, 2, 3, 1⟩, ⟨3, 2, 1, 3, 2⟩, ⟨3, 3, 1, 4, 3⟩, ⟨4, 4, 3, 5, 0⟩]⟩,
    ⟨[.plus (-1), .plus (-1)], [1, 2], some [
      ⟨1, 1, 0, 2, 0⟩, ⟨2, 2, 2, 6, 3⟩, ⟨2, 3, 2, 3, 4⟩, ⟨3, 3, 1, 3, 1⟩, ⟨4, 4, 3, 7, 0⟩]⟩]

/-- `recalc_doublet` in `nrg-recalc-QS.hpp:32-`, 2 channel(s): `qs-2ch-doubletp.dat`, `qs-2ch-doubletm.dat`. -/
def op_QS_2ch_doublet : OpTable where
  builtin := ⟨"QS", 2, fields_QS, tab_QS_2ch⟩
  kind := .doublet
  labs := labs_QS
  targets := [
    ⟨[.plus (-1), .plus 1], [1, 2], some [
      ⟨1, 1, 8, 9, 0⟩, ⟨2, 2, 10, 11, 1⟩, ⟨3, 2, 9, 11, 2⟩, ⟨3, 3, 9, 12, 3⟩, ⟨4, 4, 10, 11, 1⟩,
      ⟨5, 4, 9, 11, 2⟩, ⟨5, 5, 9, 12, 3⟩, ⟨6, 6, 11, 13, 0⟩, ⟨7, 7, 11, 13, 0⟩,
      ⟨8, 8, 11, 13, 0⟩, ⟨9, 9, 14, 15, 5⟩, ⟨10, 9, 11, 15, 6⟩, ⟨10, 10, 11, 13, 7⟩,
      ⟨11, 10, 12, 13, 8⟩, ⟨11, 11, 12, 16, 0⟩, ⟨12, 12, 15, 17, 1⟩, ⟨13, 12, 13, 17, 2⟩,
      ⟨13, 13, 13, 18, 3⟩, ⟨14, 14, 15, 17, 1⟩, ⟨15, 14, 13, 17, 2⟩, ⟨15, 15, 13, 18, 3⟩,
      ⟨16, 16, 17, 19, 0⟩]⟩,
    ⟨[.plus (-1), .plus (-1)], [1, 2], some [
      ⟨1, 1, 8, 10, 0⟩, ⟨2, 2, 10, 14, 3⟩, ⟨2, 3, 10, 11, 4⟩, ⟨3, 3, 9, 11, 1⟩,
      ⟨4, 4, 10, 14, 3⟩, ⟨4, 5, 10, 11, 4⟩, ⟨5, 5, 9, 11, 1⟩, ⟨6, 6, 11, 15, 0⟩,
      ⟨7, 7, 11, 15, 0⟩, ⟨8, 8, 11, 15, 0⟩, ⟨9, 9, 14, 20, 0⟩, ⟨9, 10, 14, 15, 9⟩,
      ⟨10, 10, 11, 15, 5⟩, ⟨10, 11, 11, 13, 10⟩, ⟨11, 11, 12, 13, 11⟩, ⟨12, 12, 15, 21, 3⟩,
      ⟨12, 13, 15, 17, 4⟩, ⟨13, 13, 13, 17, 1⟩, ⟨14, 14, 15, 21, 3⟩, ⟨14, 15, 15, 17, 4⟩,
      ⟨15, 15, 13, 17, 1⟩, ⟨16, 16, 17, 22, 0⟩]⟩]

/-- `recalc_doublet` in `nrg-recalc-QS.hpp:32-`, 3 channel(s): `qs-3ch-doubletp.dat`, `qs-3ch-doubletm.dat`. -/
def op_QS_3ch_doublet : OpTable where
  builtin := ⟨"QS", 3, fields_QS, tab_QS_3ch⟩
  kind := .doublet
  labs := labs_QS
  targets := [
    ⟨[.plus (-1), .plus 1], [1, 2], some [
      ⟨1, 1, 23, 24, 0⟩, ⟨2, 2, 25, 0, 1⟩, ⟨3, 2, 24, 0, 2⟩, ⟨3, 3, 24, 26, 3⟩, ⟨4, 4, 25, 0, 1⟩,
      ⟨5, 4, 24, 0, 2⟩, ⟨5, 5, 24, 26, 3⟩, ⟨6, 6, 25, 0, 1⟩, ⟨7, 6, 24, 0, 2⟩, ⟨7, 7, 24, 26, 3⟩,
      ⟨8, 8, 0, 1, 0⟩, ⟨9, 9, 0, 1, 0⟩, ⟨10, 10, 0, 1, 0⟩, ⟨11, 11, 0, 1, 0⟩, ⟨12, 12, 0, 1, 0⟩,
      ⟨13, 13, 0, 1, 0⟩, ⟨14, 14, 27, 2, 5⟩, ⟨15, 14, 0, 2, 6⟩, ⟨15, 15, 0, 1, 7⟩,
      ⟨16, 15, 26, 1, 8⟩, ⟨16, 16, 26, 28, 0⟩, ⟨17, 17, 27, 2, 5⟩, ⟨18, 17, 0, 2, 6⟩,
      ⟨18, 18, 0, 1, 7⟩, ⟨19, 18, 26, 1, 8⟩, ⟨19, 19, 26, 28, 0⟩, ⟨20, 20, 27, 2, 5⟩,
      ⟨21, 20, 0, 2, 6⟩, ⟨21, 21, 0, 1, 7⟩, ⟨22, 21, 26, 1, 8⟩, ⟨22, 22, 26, 28, 0⟩,
      ⟨23, 23, 2, 3, 1⟩, ⟨24, 23, 1, 3, 2⟩, ⟨24, 24, 1, 4, 3⟩, ⟨25, 25, 2, 3, 1⟩,
      ⟨26, 25, 1, 3, 2⟩, ⟨26, 26, 1, 4, 3⟩, ⟨27, 27, 2, 3, 1⟩, ⟨28, 27, 1, 3, 2⟩,
      ⟨28, 28, 1, 4, 3⟩, ⟨29, 29, 2, 3, 1⟩, ⟨30, 29, 1, 3, 2⟩, ⟨30, 30, 1, 4, 3⟩,
      ⟨31, 31, 2, 3, 1⟩, ⟨32, 31, 1, 3, 2⟩, ⟨32, 32, 1, 4, 3⟩, ⟨33, 33, 2, 3, 1⟩,
      ⟨34, 33, 1, 3, 2⟩, ⟨34, 34, 1, 4, 3⟩, ⟨35, 35, 2, 3, 1⟩, ⟨36, 35, 1, 3, 2⟩,
      ⟨36, 36, 1, 4, 3⟩, ⟨37, 37, 2, 3, 1⟩, ⟨38, 37, 1, 3, 2⟩, ⟨38, 38, 1, 4, 3⟩,
      ⟨39, 39, 29, 6, 12⟩, ⟨40, 39, 2, 6, 13⟩, ⟨40, 40, 2, 3, 14⟩, ⟨41, 40, 1, 3, 15⟩,
      ⟨41, 41, 1, 4, 16⟩, ⟨42, 41, 28, 4, 17⟩, ⟨42, 42, 28, 30, 3⟩, ⟨43, 43, 3, 5, 0⟩,
      ⟨44, 44, 3, 5, 0⟩, ⟨45, 45, 3, 5, 0⟩, ⟨46, 46, 3, 5, 0⟩, ⟨47, 47, 3, 5, 0⟩,
      ⟨48, 48, 3, 5, 0⟩, ⟨49, 49, 6, 7, 5⟩, ⟨50, 49, 3, 7, 6⟩, ⟨50, 50, 3, 5, 7⟩,
      ⟨51, 50, 4, 5, 8⟩, ⟨51, 51, 4, 31, 0⟩, ⟨52, 52, 6, 7, 5⟩, ⟨53, 52, 3, 7, 6⟩,
      ⟨53, 53, 3, 5, 7⟩, ⟨54, 53, 4, 5, 8⟩, ⟨54, 54, 4, 31, 0⟩, ⟨55, 55, 6, 7, 5⟩,
      ⟨56, 55, 3, 7, 6⟩, ⟨56, 56, 3, 5, 7⟩, ⟨57, 56, 4, 5, 8⟩, ⟨57, 57, 4, 31, 0⟩,
      ⟨58, 58, 7, 32, 1⟩, ⟨59, 58, 5, 32, 2⟩, ⟨59, 59, 5, 33, 3⟩, ⟨60, 60, 7, 32, 1⟩,
      ⟨61, 60, 5, 32, 2⟩, ⟨61, 61, 5, 33, 3⟩, ⟨62, 62, 7, 32, 1⟩, ⟨63, 62, 5, 32, 2⟩,
      ⟨63, 63, 5, 33, 3⟩, ⟨64, 64, 32, 34, 0⟩]⟩,
    ⟨[.plus (-1), .plus (-1)], [1, 2], some [
      ⟨1, 1, 23, 25, 0⟩, ⟨2, 2, 25, 27, 3⟩, ⟨2, 3, 25, 0, 4⟩, ⟨3, 3, 24, 0, 1⟩,
      ⟨4, 4, 25, 27, 3⟩, ⟨4, 5, 25, 0, 4⟩, ⟨5, 5, 24, 0, 1⟩, ⟨6, 6, 25, 27, 3⟩, ⟨6, 7, 25, 0, 4⟩,
      ⟨7, 7, 24, 0, 1⟩, ⟨8, 8, 0, 2, 0⟩, ⟨9, 9, 0, 2, 0⟩, ⟨10, 10, 0, 2, 0⟩, ⟨11, 11, 0, 2, 0⟩,
      ⟨12, 12, 0, 2, 0⟩, ⟨13, 13, 0, 2, 0⟩, ⟨14, 14, 27, 29, 0⟩, ⟨14, 15, 27, 2, 9⟩,
      ⟨15, 15, 0, 2, 5⟩, ⟨15, 16, 0, 1, 10⟩, ⟨16, 16, 26, 1, 11⟩, ⟨17, 17, 27, 29, 0⟩,
      ⟨17, 18, 27, 2, 9⟩, ⟨18, 18, 0, 2, 5⟩, ⟨18, 19, 0, 1, 10⟩, ⟨19, 19, 26, 1, 11⟩,
      ⟨20, 20, 27, 29, 0⟩, ⟨20, 21, 27, 2, 9⟩, ⟨21, 21, 0, 2, 5⟩, ⟨21, 22, 0, 1, 10⟩,
      ⟨22, 22, 26, 1, 11⟩, ⟨23, 23, 2, 6, 3⟩, ⟨23, 24, 2, 3, 4⟩, ⟨24, 24, 1, 3, 1⟩,
      ⟨25, 25, 2, 6, 3⟩, ⟨25, 26, 2, 3, 4⟩, ⟨26, 26, 1, 3, 1⟩, ⟨27, 27, 2, 6, 3⟩,
      ⟨27, 28, 2, 3, 4⟩, ⟨28, 28, 1, 3, 1⟩, ⟨29, 29, 2, 6, 3⟩, ⟨29, 30, 2, 3, 4⟩,
      ⟨30, 30, 1, 3, 1⟩, ⟨31, 31, 2, 6, 3⟩, ⟨31, 32, 2, 3, 4⟩, ⟨32, 32, 1, 3, 1⟩,
      ⟨33, 33, 2, 6, 3⟩, ⟨33, 34, 2, 3, 4⟩, ⟨34, 34, 1, 3, 1⟩, ⟨35, 35, 2, 6, 3⟩,
      ⟨35, 36, 2, 3, 4⟩, ⟨36, 36, 1, 3, 1⟩, ⟨37, 37, 2, 6, 3⟩, ⟨37, 38, 2, 3, 4⟩,
      ⟨38, 38, 1, 3, 1⟩, ⟨39, 39, 29, 35, 3⟩, ⟨39, 40, 29, 6, 18⟩, ⟨40, 40, 2, 6, 19⟩,
      ⟨40, 41, 2, 3, 20⟩, ⟨41, 41, 1, 3, 14⟩, ⟨41, 42, 1, 4, 21⟩, ⟨42, 42, 28, 4, 22⟩,
      ⟨43, 43, 3, 7, 0⟩, ⟨44, 44, 3, 7, 0⟩, ⟨45, 45, 3, 7, 0⟩, ⟨46, 46, 3, 7, 0⟩,
      ⟨47, 47, 3, 7, 0⟩, ⟨48, 48, 3, 7, 0⟩, ⟨49, 49, 6, 36, 0⟩, ⟨49, 50, 6, 7, 9⟩,
      ⟨50, 50, 3, 7, 5⟩, ⟨50, 51, 3, 5, 10⟩, ⟨51, 51, 4, 5, 11⟩, ⟨52, 52, 6, 36, 0⟩,
      ⟨52, 53, 6, 7, 9⟩, ⟨53, 53, 3, 7, 5⟩, ⟨53, 54, 3, 5, 10⟩, ⟨54, 54, 4, 5, 11⟩,
      ⟨55, 55, 6, 36, 0⟩, ⟨55, 56, 6, 7, 9⟩, ⟨56, 56, 3, 7, 5⟩, ⟨56, 57, 3, 5, 10⟩,
      ⟨57, 57, 4, 5, 11⟩, ⟨58, 58, 7, 37, 3⟩, ⟨58, 59, 7, 32, 4⟩, ⟨59, 59, 5, 32, 1⟩,
      ⟨60, 60, 7, 37, 3⟩, ⟨60, 61, 7, 32, 4⟩, ⟨61, 61, 5, 32, 1⟩, ⟨62, 62, 7, 37, 3⟩,
      ⟨62, 63, 7, 32, 4⟩, ⟨63, 63, 5, 32, 1⟩, ⟨64, 64, 32, 38, 0⟩]⟩]

/-- `recalc_doublet` in `nrg-recalc-QS.hpp:32-`, 4 channel(s): `qs-4ch-doubletp.dat`, `qs-4ch-doubletm.dat`. -/
def op_QS_4ch_doublet : OpTable where
  builtin := ⟨"QS", 4, fields_QS, tab_QS_4ch⟩
  kind := .doublet
  labs := labs_QS
  targets := [
    ⟨[.plus (-1), .plus 1], [1, 2], some [
      ⟨1, 1, 39, 40, 0⟩, ⟨2, 2, 41, 8, 1⟩, ⟨3, 2, 40, 8, 2⟩, ⟨3, 3, 40, 42, 3⟩, ⟨4, 4, 41, 8, 1⟩,
      ⟨5, 4, 40, 8, 2⟩, ⟨5, 5, 40, 42, 3⟩, ⟨6, 6, 41, 8, 1⟩, ⟨7, 6, 40, 8, 2⟩, ⟨7, 7, 40, 42, 3⟩,
      ⟨8, 8, 41, 8, 1⟩, ⟨9, 8, 40, 8, 2⟩, ⟨9, 9, 40, 42, 3⟩, ⟨10, 10, 8, 9, 0⟩,
      ⟨11, 11, 8, 9, 0⟩, ⟨12, 12, 8, 9, 0⟩, ⟨13, 13, 8, 9, 0⟩, ⟨14, 14, 8, 9, 0⟩,
      ⟨15, 15, 8, 9, 0⟩, ⟨16, 16, 8, 9, 0⟩, ⟨17, 17, 8, 9, 0⟩, ⟨18, 18, 8, 9, 0⟩,
      ⟨19, 19, 8, 9, 0⟩, ⟨20, 20, 43, 10, 5⟩, ⟨21, 20, 8, 10, 6⟩, ⟨21, 21, 8, 9, 7⟩,
      ⟨22, 21, 42, 9, 8⟩, ⟨22, 22, 42, 44, 0⟩, ⟨23, 23, 43, 10, 5⟩, ⟨24, 23, 8, 10, 6⟩,
      ⟨24, 24, 8, 9, 7⟩, ⟨25, 24, 42, 9, 8⟩, ⟨25, 25, 42, 44, 0⟩, ⟨26, 26, 43, 10, 5⟩,
      ⟨27, 26, 8, 10, 6⟩, ⟨27, 27, 8, 9, 7⟩, ⟨28, 27, 42, 9, 8⟩, ⟨28, 28, 42, 44, 0⟩,
      ⟨29, 29, 43, 10, 5⟩, ⟨30, 29, 8, 10, 6⟩, ⟨30, 30, 8, 9, 7⟩, ⟨31, 30, 42, 9, 8⟩,
      ⟨31, 31, 42, 44, 0⟩, ⟨32, 32, 43, 10, 5⟩, ⟨33, 32, 8, 10, 6⟩, ⟨33, 33, 8, 9, 7⟩,
      ⟨34, 33, 42, 9, 8⟩, ⟨34, 34, 42, 44, 0⟩, ⟨35, 35, 43, 10, 5⟩, ⟨36, 35, 8, 10, 6⟩,
      ⟨36, 36, 8, 9, 7⟩, ⟨37, 36, 42, 9, 8⟩, ⟨37, 37, 42, 44, 0⟩, ⟨38, 38, 10, 11, 1⟩,
      ⟨39, 38, 9, 11, 2⟩, ⟨39, 39, 9, 12, 3⟩, ⟨40, 40, 10, 11, 1⟩, ⟨41, 40, 9, 11, 2⟩,
      ⟨41, 41, 9, 12, 3⟩, ⟨42, 42, 10, 11, 1⟩, ⟨43, 42, 9, 11, 2⟩, ⟨43, 43, 9, 12, 3⟩,
      ⟨44, 44, 10, 11, 1⟩, ⟨45, 44, 9, 11, 2⟩, ⟨45, 45, 9, 12, 3⟩, ⟨46, 46, 10, 11, 1⟩,
      ⟨47, 46, 9, 11, 2⟩, ⟨47, 47, 9, 12, 3⟩, ⟨48, 48, 10, 11, 1⟩, ⟨49, 48, 9, 11, 2⟩,
      ⟨49, 49, 9, 12, 3⟩, ⟨50, 50, 10, 11, 1⟩, ⟨51, 50, 9, 11, 2⟩, ⟨51, 51, 9, 12, 3⟩,
      ⟨52, 52, 10, 11, 1⟩, ⟨53, 52, 9, 11, 2⟩, ⟨53, 53, 9, 12, 3⟩, ⟨54, 54, 10, 11, 1⟩,
      ⟨55, 54, 9, 11, 2⟩, ⟨55, 55, 9, 12, 3⟩, ⟨56, 56, 10, 11, 1⟩, ⟨57, 56, 9, 11, 2⟩,
      ⟨57, 57, 9, 12, 3⟩, ⟨58, 58, 10, 11, 1⟩, ⟨59, 58, 9, 11, 2⟩, ⟨59, 59, 9, 12, 3⟩,
      ⟨60, 60, 10, 11, 1⟩, ⟨61, 60, 9, 11, 2⟩, ⟨61, 61, 9, 12, 3⟩, ⟨62, 62, 10, 11, 1⟩,
      ⟨63, 62, 9, 11, 2⟩, ⟨63, 63, 9, 12, 3⟩, ⟨64, 64, 10, 11, 1⟩, ⟨65, 64, 9, 11, 2⟩,
      ⟨65, 65, 9, 12, 3⟩, ⟨66, 66, 10, 11, 1⟩, ⟨67, 66, 9, 11, 2⟩, ⟨67, 67, 9, 12, 3⟩,
      ⟨68, 68, 10, 11, 1⟩, ⟨69, 68, 9, 11, 2⟩, ⟨69, 69, 9, 12, 3⟩, ⟨70, 70, 10, 11, 1⟩,
      ⟨71, 70, 9, 11, 2⟩, ⟨71, 71, 9, 12, 3⟩, ⟨72, 72, 10, 11, 1⟩, ⟨73, 72, 9, 11, 2⟩,
      ⟨73, 73, 9, 12, 3⟩, ⟨74, 74, 10, 11, 1⟩, ⟨75, 74, 9, 11, 2⟩, ⟨75, 75, 9, 12, 3⟩,
      ⟨76, 76, 10, 11, 1⟩, ⟨77, 76, 9, 11, 2⟩, ⟨77, 77, 9, 12, 3⟩, ⟨78, 78, 45, 14, 12⟩,
      ⟨79, 78, 10, 14, 13⟩, ⟨79, 79, 10, 11, 14⟩, ⟨80, 79, 9, 11, 15⟩, ⟨80, 80, 9, 12, 16⟩,
      ⟨81, 80, 44, 12, 17⟩, ⟨81, 81, 44, 46, 3⟩, ⟨82, 82, 45, 14, 12⟩, ⟨83, 82, 10, 14, 13⟩,
      ⟨83, 83, 10, 11, 14⟩, ⟨84, 83, 9, 11, 15⟩, ⟨84, 84, 9, 12, 16⟩, ⟨85, 84, 44, 12, 17⟩,
      ⟨85, 85, 44, 46, 3⟩, ⟨86, 86, 45, 14, 12⟩, ⟨87, 86, 10, 14, 13⟩, ⟨87, 87, 10, 11, 14⟩,
      ⟨88, 87, 9, 11, 15⟩, ⟨88, 88, 9, 12, 16⟩, ⟨89, 88, 44, 12, 17⟩, ⟨89, 89, 44, 46, 3⟩,
      ⟨90, 90, 45, 14, 12⟩, ⟨91, 90, 10, 14, 13⟩, ⟨91, 91, 10, 11, 14⟩, ⟨92, 91, 9, 11, 15⟩,
      ⟨92, 92, 9, 12, 16⟩, ⟨93, 92, 44, 12, 17⟩, ⟨93, 93, 44, 46, 3⟩, ⟨94, 94, 11, 13, 0⟩,
      ⟨95, 95, 11, 13, 0⟩, ⟨96, 96, 11, 13, 0⟩, ⟨97, 97, 11, 13, 0⟩, ⟨98, 98, 11, 13, 0⟩,
      ⟨99, 99, 11, 13, 0⟩, ⟨100, 100, 11, 13, 0⟩, ⟨101, 101, 11, 13, 0⟩, ⟨102, 102, 11, 13, 0⟩,
      ⟨103, 103, 11, 13, 0⟩, ⟨104, 104, 11, 13, 0⟩, ⟨105, 105, 11, 13, 0⟩, ⟨106, 106, 11, 13, 0⟩,
      ⟨107, 107, 11, 13, 0⟩, ⟨108, 108, 11, 13, 0⟩, ⟨109, 109, 11, 13, 0⟩, ⟨110, 110, 11, 13, 0⟩,
      ⟨111, 111, 11, 13, 0⟩, ⟨112, 112, 11, 13, 0⟩, ⟨113, 113, 11, 13, 0⟩, ⟨114, 114, 14, 15, 5⟩,
      ⟨115, 114, 11, 15, 6⟩, ⟨115, 115, 11, 13, 7⟩, ⟨116, 115, 12, 13, 8⟩, ⟨116, 116, 12, 16, 0⟩,
      ⟨117, 117, 14, 15, 5⟩, ⟨118, 117, 11, 15, 6⟩, ⟨118, 118, 11, 13, 7⟩, ⟨119, 118, 12, 13, 8⟩,
      ⟨119, 119, 12, 16, 0⟩, ⟨120, 120, 14, 15, 5⟩, ⟨121, 120, 11, 15, 6⟩, ⟨121, 121, 11, 13, 7⟩,
      ⟨122, 121, 12, 13, 8⟩, ⟨122, 122, 12, 16, 0⟩, ⟨123, 123, 14, 15, 5⟩, ⟨124, 123, 11, 15, 6⟩,
      ⟨124, 124, 11, 13, 7⟩, ⟨125, 124, 12, 13, 8⟩, ⟨125, 125, 12, 16, 0⟩, ⟨126, 126, 14, 15, 5⟩,
      ⟨127, 126, 11, 15, 6⟩, ⟨127, 127, 11, 13, 7⟩, ⟨128, 127, 12, 13, 8⟩, ⟨128, 128, 12, 16, 0⟩,
      ⟨129, 129, 14, 15, 5⟩, ⟨130, 129, 11, 15, 6⟩, ⟨130, 130, 11, 13, 7⟩, ⟨131, 130, 12, 13, 8⟩,
      ⟨131, 131, 12, 16, 0⟩, ⟨132, 132, 14, 15, 5⟩, ⟨133, 132, 11, 15, 6⟩, ⟨133, 133, 11, 13, 7⟩,
      ⟨134, 133, 12, 13, 8⟩, ⟨134, 134, 12, 16, 0⟩, ⟨135, 135, 14, 15, 5⟩, ⟨136, 135, 11, 15, 6⟩,
      ⟨136, 136, 11, 13, 7⟩, ⟨137, 136, 12, 13, 8⟩, ⟨137, 137, 12, 16, 0⟩, ⟨138, 138, 14, 15, 5⟩,
      ⟨139, 138, 11, 15, 6⟩, ⟨139, 139, 11, 13, 7⟩, ⟨140, 139, 12, 13, 8⟩, ⟨140, 140, 12, 16, 0⟩,
      ⟨141, 141, 14, 15, 5⟩, ⟨142, 141, 11, 15, 6⟩, ⟨142, 142, 11, 13, 7⟩, ⟨143, 142, 12, 13, 8⟩,
      ⟨143, 143, 12, 16, 0⟩, ⟨144, 144, 14, 15, 5⟩, ⟨145, 144, 11, 15, 6⟩, ⟨145, 145, 11, 13, 7⟩,
      ⟨146, 145, 12, 13, 8⟩, ⟨146, 146, 12, 16, 0⟩, ⟨147, 147, 14, 15, 5⟩, ⟨148, 147, 11, 15, 6⟩,
      ⟨148, 148, 11, 13, 7⟩, ⟨149, 148, 12, 13, 8⟩, ⟨149, 149, 12, 16, 0⟩, ⟨150, 150, 14, 15, 5⟩,
      ⟨151, 150, 11, 15, 6⟩, ⟨151, 151, 11, 13, 7⟩, ⟨152, 151, 12, 13, 8⟩, ⟨152, 152, 12, 16, 0⟩,
      ⟨153, 153, 14, 15, 5⟩, ⟨154, 153, 11, 15, 6⟩, ⟨154, 154, 11, 13, 7⟩, ⟨155, 154, 12, 13, 8⟩,
      ⟨155, 155, 12, 16, 0⟩, ⟨156, 156, 14, 15, 5⟩, ⟨157, 156, 11, 15, 6⟩, ⟨157, 157, 11, 13, 7⟩,
      ⟨158, 157, 12, 13, 8⟩, ⟨158, 158, 12, 16, 0⟩, ⟨159, 159, 47, 20, 23⟩,
      ⟨160, 159, 14, 20, 24⟩, ⟨160, 160, 14, 15, 25⟩, ⟨161, 160, 11, 15, 26⟩,
      ⟨161, 161, 11, 13, 27⟩, ⟨162, 161, 12, 13, 28⟩, ⟨162, 162, 12, 16, 29⟩,
      ⟨163, 162, 46, 16, 30⟩, ⟨163, 163, 46, 48, 0⟩, ⟨164, 164, 15, 17, 1⟩,
      ⟨165, 164, 13, 17, 2⟩, ⟨165, 165, 13, 18, 3⟩, ⟨166, 166, 15, 17, 1⟩, ⟨167, 166, 13, 17, 2⟩,
      ⟨167, 167, 13, 18, 3⟩, ⟨168, 168, 15, 17, 1⟩, ⟨169, 168, 13, 17, 2⟩, ⟨169, 169, 13, 18, 3⟩,
      ⟨170, 170, 15, 17, 1⟩, ⟨171, 170, 13, 17, 2⟩, ⟨171, 171, 13, 18, 3⟩, ⟨172, 172, 15, 17, 1⟩,
      ⟨173, 172, 13, 17, 2⟩, ⟨173, 173, 13, 18, 3⟩, ⟨174, 174, 15, 17, 1⟩, ⟨175, 174, 13, 17, 2⟩,
      ⟨175, 175, 13, 18, 3⟩, ⟨176, 176, 15, 17, 1⟩, ⟨177, 176, 13, 17, 2⟩, ⟨177, 177, 13, 18, 3⟩,
      ⟨178, 178, 15, 17, 1⟩, ⟨179, 178, 13, 17, 2⟩, ⟨179, 179, 13, 18, 3⟩, ⟨180, 180, 15, 17, 1⟩,
      ⟨181, 180, 13, 17, 2⟩, ⟨181, 181, 13, 18, 3⟩, ⟨182, 182, 15, 17, 1⟩, ⟨183, 182, 13, 17, 2⟩,
      ⟨183, 183, 13, 18, 3⟩, ⟨184, 184, 15, 17, 1⟩, ⟨185, 184, 13, 17, 2⟩, ⟨185, 185, 13, 18, 3⟩,
      ⟨186, 186, 15, 17, 1⟩, ⟨187, 186, 13, 17, 2⟩, ⟨187, 187, 13, 18, 3⟩, ⟨188, 188, 15, 17, 1⟩,
      ⟨189, 188, 13, 17, 2⟩, ⟨189, 189, 13, 18, 3⟩, ⟨190, 190, 15, 17, 1⟩, ⟨191, 190, 13, 17, 2⟩,
      ⟨191, 191, 13, 18, 3⟩, ⟨192, 192, 15, 17, 1⟩, ⟨193, 192, 13, 17, 2⟩, ⟨193, 193, 13, 18, 3⟩,
      ⟨194, 194, 15, 17, 1⟩, ⟨195, 194, 13, 17, 2⟩, ⟨195, 195, 13, 18, 3⟩, ⟨196, 196, 15, 17, 1⟩,
      ⟨197, 196, 13, 17, 2⟩, ⟨197, 197, 13, 18, 3⟩, ⟨198, 198, 15, 17, 1⟩, ⟨199, 198, 13, 17, 2⟩,
      ⟨199, 199, 13, 18, 3⟩, ⟨200, 200, 15, 17, 1⟩, ⟨201, 200, 13, 17, 2⟩, ⟨201, 201, 13, 18, 3⟩,
      ⟨202, 202, 15, 17, 1⟩, ⟨203, 202, 13, 17, 2⟩, ⟨203, 203, 13, 18, 3⟩,
      ⟨204, 204, 20, 21, 12⟩, ⟨205, 204, 15, 21, 13⟩, ⟨205, 205, 15, 17, 14⟩,
      ⟨206, 205, 13, 17, 15⟩, ⟨206, 206, 13, 18, 16⟩, ⟨207, 206, 16, 18, 17⟩,
      ⟨207, 207, 16, 49, 3⟩, ⟨208, 208, 20, 21, 12⟩, ⟨209, 208, 15, 21, 13⟩,
      ⟨209, 209, 15, 17, 14⟩, ⟨210, 209, 13, 17, 15⟩, ⟨210, 210, 13, 18, 16⟩,
      ⟨211, 210, 16, 18, 17⟩, ⟨211, 211, 16, 49, 3⟩, ⟨212, 212, 20, 21, 12⟩,
      ⟨213, 212, 15, 21, 13⟩, ⟨213, 213, 15, 17, 14⟩, ⟨214, 213, 13, 17, 15⟩,
      ⟨214, 214, 13, 18, 16⟩, ⟨215, 214, 16, 18, 17⟩, ⟨215, 215, 16, 49, 3⟩,
      ⟨216, 216, 20, 21, 12⟩, ⟨217, 216, 15, 21, 13⟩, ⟨217, 217, 15, 17, 14⟩,
      ⟨218, 217, 13, 17, 15⟩, ⟨218, 218, 13, 18, 16⟩, ⟨219, 218, 16, 18, 17⟩,
      ⟨219, 219, 16, 49, 3⟩, ⟨220, 220, 17, 19, 0⟩, ⟨221, 221, 17, 19, 0⟩, ⟨222, 222, 17, 19, 0⟩,
      ⟨223, 223, 17, 19, 0⟩, ⟨224, 224, 17, 19, 0⟩, ⟨225, 225, 17, 19, 0⟩, ⟨226, 226, 17, 19, 0⟩,
      ⟨227, 227, 17, 19, 0⟩, ⟨228, 228, 17, 19, 0⟩, ⟨229, 229, 17, 19, 0⟩, ⟨230, 230, 21, 22, 5⟩,
      ⟨231, 230, 17, 22, 6⟩, ⟨231, 231, 17, 19, 7⟩, ⟨232, 231, 18, 19, 8⟩, ⟨232, 232, 18, 50, 0⟩,
      ⟨233, 233, 21, 22, 5⟩, ⟨234, 233, 17, 22, 6⟩, ⟨234, 234, 17, 19, 7⟩, ⟨235, 234, 18, 19, 8⟩,
      ⟨235, 235, 18, 50, 0⟩, ⟨236, 236, 21, 22, 5⟩, ⟨237, 236, 17, 22, 6⟩, ⟨237, 237, 17, 19, 7⟩,
      ⟨238, 237, 18, 19, 8⟩, ⟨238, 238, 18, 50, 0⟩, ⟨239, 239, 21, 22, 5⟩, ⟨240, 239, 17, 22, 6⟩,
      ⟨240, 240, 17, 19, 7⟩, ⟨241, 240, 18, 19, 8⟩, ⟨241, 241, 18, 50, 0⟩, ⟨242, 242, 21, 22, 5⟩,
      ⟨243, 242, 17, 22, 6⟩, ⟨243, 243, 17, 19, 7⟩, ⟨244, 243, 18, 19, 8⟩, ⟨244, 244, 18, 50, 0⟩,
      ⟨245, 245, 21, 22, 5⟩, ⟨246, 245, 17, 22, 6⟩, ⟨246, 246, 17, 19, 7⟩, ⟨247, 246, 18, 19, 8⟩,
      ⟨247, 247, 18, 50, 0⟩, ⟨248, 248, 22, 51, 1⟩, ⟨249, 248, 19, 51, 2⟩, ⟨249, 249, 19, 52, 3⟩,
      ⟨250, 250, 22, 51, 1⟩, ⟨251, 250, 19, 51, 2⟩, ⟨251, 251, 19, 52, 3⟩, ⟨252, 252, 22, 51, 1⟩,
      ⟨253, 252, 19, 51, 2⟩, ⟨253, 253, 19, 52, 3⟩, ⟨254, 254, 22, 51, 1⟩, ⟨255, 254, 19, 51, 2⟩,
      ⟨255, 255, 19, 52, 3⟩, ⟨256, 256, 51, 53, 0⟩]⟩,
    ⟨[.plus (-1), .plus (-1)], [1, 2], some [
      ⟨1, 1, 39, 41, 0⟩, ⟨2, 2, 41, 43, 3⟩, ⟨2, 3, 41, 8, 4⟩, ⟨3, 3, 40, 8, 1⟩,
      ⟨4, 4, 41, 43, 3⟩, ⟨4, 5, 41, 8, 4⟩, ⟨5, 5, 40, 8, 1⟩, ⟨6, 6, 41, 43, 3⟩, ⟨6, 7, 41, 8, 4⟩,
      ⟨7, 7, 40, 8, 1⟩, ⟨8, 8, 41, 43, 3⟩, ⟨8, 9, 41, 8, 4⟩, ⟨9, 9, 40, 8, 1⟩,
      ⟨10, 10, 8, 10, 0⟩, ⟨11, 11, 8, 10, 0⟩, ⟨12, 12, 8, 10, 0⟩, ⟨13, 13, 8, 10, 0⟩,
      ⟨14, 14, 8, 10, 0⟩, ⟨15, 15, 8, 10, 0⟩, ⟨16, 16, 8, 10, 0⟩, ⟨17, 17, 8, 10, 0⟩,
      ⟨18, 18, 8, 10, 0⟩, ⟨19, 19, 8, 10, 0⟩, ⟨20, 20, 43, 45, 0⟩, ⟨20, 21, 43, 10, 9⟩,
      ⟨21, 21, 8, 10, 5⟩, ⟨21, 22, 8, 9, 10⟩, ⟨22, 22, 42, 9, 11⟩, ⟨23, 23, 43, 45, 0⟩,
      ⟨23, 24, 43, 10, 9⟩, ⟨24, 24, 8, 10, 5⟩, ⟨24, 25, 8, 9, 10⟩, ⟨25, 25, 42, 9, 11⟩,
      ⟨26, 26, 43, 45, 0⟩, ⟨26, 27, 43, 10, 9⟩, ⟨27, 27, 8, 10, 5⟩, ⟨27, 28, 8, 9, 10⟩,
      ⟨28, 28, 42, 9, 11⟩, ⟨29, 29, 43, 45, 0⟩, ⟨29, 30, 43, 10, 9⟩, ⟨30, 30, 8, 10, 5⟩,
      ⟨30, 31, 8, 9, 10⟩, ⟨31, 31, 42, 9, 11⟩, ⟨32, 32, 43, 45, 0⟩, ⟨32, 33, 43, 10, 9⟩,
      ⟨33, 33, 8, 10, 5⟩, ⟨33, 34, 8, 9, 10⟩, ⟨34, 34, 42, 9, 11⟩, ⟨35, 35, 43, 45, 0⟩,
      ⟨35, 36, 43, 10, 9⟩, ⟨36, 36, 8, 10, 5⟩, ⟨36, 37, 8, 9, 10⟩, ⟨37, 37, 42, 9, 11⟩,
      ⟨38, 38, 10, 14, 3⟩, ⟨38, 39, 10, 11, 4⟩, ⟨39, 39, 9, 11, 1⟩, ⟨40, 40, 10, 14, 3⟩,
      ⟨40, 41, 10, 11, 4⟩, ⟨41, 41, 9, 11, 1⟩, ⟨42, 42, 10, 14, 3⟩, ⟨42, 43, 10, 11, 4⟩,
      ⟨43, 43, 9, 11, 1⟩, ⟨44, 44, 10, 14, 3⟩, ⟨44, 45, 10, 11, 4⟩, ⟨45, 45, 9, 11, 1⟩,
      ⟨46, 46, 10, 14, 3⟩, ⟨46, 47, 10, 11, 4⟩, ⟨47, 47, 9, 11, 1⟩, ⟨48, 48, 10, 14, 3⟩,
      ⟨48, 49, 10, 11, 4⟩, ⟨49, 49, 9, 11, 1⟩, ⟨50, 50, 10, 14, 3⟩, ⟨50, 51, 10, 11, 4⟩,
      ⟨51, 51, 9, 11, 1⟩, ⟨52, 52, 10, 14, 3⟩, ⟨52, 53, 10, 11, 4⟩, ⟨53, 53, 9, 11, 1⟩,
      ⟨54, 54, 10, 14, 3⟩, ⟨54, 55, 10, 11, 4⟩, ⟨55, 55, 9, 11, 1⟩, ⟨56, 56, 10, 14, 3⟩,
      ⟨56, 57, 10, 11, 4⟩, ⟨57, 57, 9, 11, 1⟩, ⟨58, 58, 10, 14, 3⟩, ⟨58, 59, 10, 11, 4⟩,
      ⟨59, 59, 9, 11, 1⟩, ⟨60, 60, 10, 14, 3⟩, ⟨60, 61, 10, 11, 4⟩, ⟨61, 61, 9, 11, 1⟩,
      ⟨62, 62, 10, 14, 3⟩, ⟨62, 63, 10, 11, 4⟩, ⟨63, 63, 9, 11, 1⟩, ⟨64, 64, 10, 14, 3⟩,
      ⟨64, 65, 10, 11, 4⟩, ⟨65, 65, 9, 11, 1⟩, ⟨66, 66, 10, 14, 3⟩, ⟨66, 67, 10, 11, 4⟩,
      ⟨67, 67, 9, 11, 1⟩, ⟨68, 68, 10, 14, 3⟩, ⟨68, 69, 10, 11, 4⟩, ⟨69, 69, 9, 11, 1⟩,
      ⟨70, 70, 10, 14, 3⟩, ⟨70, 71, 10, 11, 4⟩, ⟨71, 71, 9, 11, 1⟩, ⟨72, 72, 10, 14, 3⟩,
      ⟨72, 73, 10, 11, 4⟩, ⟨73, 73, 9, 11, 1⟩, ⟨74, 74, 10, 14, 3⟩, ⟨74, 75, 10, 11, 4⟩,
      ⟨75, 75, 9, 11, 1⟩, ⟨76, 76, 10, 14, 3⟩, ⟨76, 77, 10, 11, 4⟩, ⟨77, 77, 9, 11, 1⟩,
      ⟨78, 78, 45, 47, 3⟩, ⟨78, 79, 45, 14, 18⟩, ⟨79, 79, 10, 14, 19⟩, ⟨79, 80, 10, 11, 20⟩,
      ⟨80, 80, 9, 11, 14⟩, ⟨80, 81, 9, 12, 21⟩, ⟨81, 81, 44, 12, 22⟩, ⟨82, 82, 45, 47, 3⟩,
      ⟨82, 83, 45, 14, 18⟩, ⟨83, 83, 10, 14, 19⟩, ⟨83, 84, 10, 11, 20⟩, ⟨84, 84, 9, 11, 14⟩,
      ⟨84, 85, 9, 12, 21⟩, ⟨85, 85, 44, 12, 22⟩, ⟨86, 86, 45, 47, 3⟩, ⟨86, 87, 45, 14, 18⟩,
      ⟨87, 87, 10, 14, 19⟩, ⟨87, 88, 10, 11, 20⟩, ⟨88, 88, 9, 11, 14⟩, ⟨88, 89, 9, 12, 21⟩,
      ⟨89, 89, 44, 12, 22⟩, ⟨90, 90, 45, 47, 3⟩, ⟨90, 91, 45, 14, 18⟩, ⟨91, 91, 10, 14, 19⟩,
      ⟨91, 92, 10, 11, 20⟩, ⟨92, 92, 9, 11, 14⟩, ⟨92, 93, 9, 12, 21⟩, ⟨93, 93, 44, 12, 22⟩,
      ⟨94, 94, 11, 15, 0⟩, ⟨95, 95, 11, 15, 0⟩, ⟨96, 96, 11, 15, 0⟩, ⟨97, 97, 11, 15, 0⟩,
      ⟨98, 98, 11, 15, 0⟩, ⟨99, 99, 11, 15, 0⟩, ⟨100, 100, 11, 15, 0⟩, ⟨101, 101, 11, 15, 0⟩,
      ⟨102, 102, 11, 15, 0⟩, ⟨103, 103, 11, 15, 0⟩, ⟨104, 104, 11, 15, 0⟩, ⟨105, 105, 11, 15, 0⟩,
      ⟨106, 106, 11, 15, 0⟩, ⟨107, 107, 11, 15, 0⟩, ⟨108, 108, 11, 15, 0⟩, ⟨109, 109, 11, 15, 0⟩,
      ⟨110, 110, 11, 15, 0⟩, ⟨111, 111, 11, 15, 0⟩, ⟨112, 112, 11, 15, 0⟩, ⟨113, 113, 11, 15, 0⟩,
      ⟨114, 114, 14, 20, 0⟩, ⟨114, 115, 14, 15, 9⟩, ⟨115, 115, 11, 15, 5⟩,
      ⟨115, 116, 11, 13, 10⟩, ⟨116, 116, 12, 13, 11⟩, ⟨117, 117, 14, 20, 0⟩,
      ⟨117, 118, 14, 15, 9⟩, ⟨118, 118, 11, 15, 5⟩, ⟨118, 119, 11, 13, 10⟩,
      ⟨119, 119, 12, 13, 11⟩, ⟨120, 120, 14, 20, 0⟩, ⟨120, 121, 14, 15, 9⟩,
      ⟨121, 121, 11, 15, 5⟩, ⟨121, 122, 11, 13, 10⟩, ⟨122, 122, 12, 13, 11⟩,
      ⟨123, 123, 14, 20, 0⟩, ⟨123, 124, 14, 15, 9⟩, ⟨124, 124, 11, 15, 5⟩,
      ⟨124, 125, 11, 13, 10⟩, ⟨125, 125, 12, 13, 11⟩, ⟨126, 126, 14, 20, 0⟩,
      ⟨126, 127, 14, 15, 9⟩, ⟨127, 127, 11, 15, 5⟩, ⟨127, 128, 11, 13, 10⟩,
      ⟨128, 128, 12, 13, 11⟩, ⟨129, 129, 14, 20, 0⟩, ⟨129, 130, 14, 15, 9⟩,
      ⟨130, 130, 11, 15, 5⟩, ⟨130, 131, 11, 13, 10⟩, ⟨131, 131, 12, 13, 11⟩,
      ⟨132, 132, 14, 20, 0⟩, ⟨132, 133, 14, 15, 9⟩, ⟨133, 133, 11, 15, 5⟩,
      ⟨133, 134, 11, 13, 10⟩, ⟨134, 134, 12, 13, 11⟩, ⟨135, 135, 14, 20, 0⟩,
      ⟨135, 136, 14, 15, 9⟩, ⟨136, 136, 11, 15, 5⟩, ⟨136, 137, 11, 13, 10⟩,
      ⟨137, 137, 12, 13, 11⟩, ⟨138, 138, 14, 20, 0⟩, ⟨138, 139, 14, 15, 9⟩,
      ⟨139, 139, 11, 15, 5⟩, ⟨139, 140, 11, 13, 10⟩, ⟨140, 140, 12, 13, 11⟩,
      ⟨141, 141, 14, 20, 0⟩, ⟨141, 142, 14, 15, 9⟩, ⟨142, 142, 11, 15, 5⟩,
      ⟨142, 143, 11, 13, 10⟩, ⟨143, 143, 12, 13, 11⟩, ⟨144, 144, 14, 20, 0⟩,
      ⟨144, 145, 14, 15, 9⟩, ⟨145, 145, 11, 15, 5⟩, ⟨145, 146, 11, 13, 10⟩,
      ⟨146, 146, 12, 13, 11⟩, ⟨147, 147, 14, 20, 0⟩, ⟨147, 148, 14, 15, 9⟩,
      ⟨148, 148, 11, 15, 5⟩, ⟨148, 149, 11, 13, 10⟩, ⟨149, 149, 12, 13, 11⟩,
      ⟨150, 150, 14, 20, 0⟩, ⟨150, 151, 14, 15, 9⟩, ⟨151, 151, 11, 15, 5⟩,
      ⟨151, 152, 11, 13, 10⟩, ⟨152, 152, 12, 13, 11⟩, ⟨153, 153, 14, 20, 0⟩,
      ⟨153, 154, 14, 15, 9⟩, ⟨154, 154, 11, 15, 5⟩, ⟨154, 155, 11, 13, 10⟩,
      ⟨155, 155, 12, 13, 11⟩, ⟨156, 156, 14, 20, 0⟩, ⟨156, 157, 14, 15, 9⟩,
      ⟨157, 157, 11, 15, 5⟩, ⟨157, 158, 11, 13, 10⟩, ⟨158, 158, 12, 13, 11⟩,
      ⟨159, 159, 47, 54, 0⟩, ⟨159, 160, 47, 20, 31⟩, ⟨160, 160, 14, 20, 32⟩,
      ⟨160, 161, 14, 15, 33⟩, ⟨161, 161, 11, 15, 34⟩, ⟨161, 162, 11, 13, 35⟩,
      ⟨162, 162, 12, 13, 36⟩, ⟨162, 163, 12, 16, 37⟩, ⟨163, 163, 46, 16, 38⟩,
      ⟨164, 164, 15, 21, 3⟩, ⟨164, 165, 15, 17, 4⟩, ⟨165, 165, 13, 17, 1⟩, ⟨166, 166, 15, 21, 3⟩,
      ⟨166, 167, 15, 17, 4⟩, ⟨167, 167, 13, 17, 1⟩, ⟨168, 168, 15, 21, 3⟩, ⟨168, 169, 15, 17, 4⟩,
      ⟨169, 169, 13, 17, 1⟩, ⟨170, 170, 15, 21, 3⟩, ⟨170, 171, 15, 17, 4⟩, ⟨171, 171, 13, 17, 1⟩,
      ⟨172, 172, 15, 21, 3⟩, ⟨172, 173, 15, 17, 4⟩, ⟨173, 173, 13, 17, 1⟩, ⟨174, 174, 15, 21, 3⟩,
      ⟨174, 175, 15, 17, 4⟩, ⟨175, 175, 13, 17, 1⟩, ⟨176, 176, 15, 21, 3⟩, ⟨176, 177, 15, 17, 4⟩,
      ⟨177, 177, 13, 17, 1⟩, ⟨178, 178, 15, 21, 3⟩, ⟨178, 179, 15, 17, 4⟩, ⟨179, 179, 13, 17, 1⟩,
      ⟨180, 180, 15, 21, 3⟩, ⟨180, 181, 15, 17, 4⟩, ⟨181, 181, 13, 17, 1⟩, ⟨182, 182, 15, 21, 3⟩,
      ⟨182, 183, 15, 17, 4⟩, ⟨183, 183, 13, 17, 1⟩, ⟨184, 184, 15, 21, 3⟩, ⟨184, 185, 15, 17, 4⟩,
      ⟨185, 185, 13, 17, 1⟩, ⟨186, 186, 15, 21, 3⟩, ⟨186, 187, 15, 17, 4⟩, ⟨187, 187, 13, 17, 1⟩,
      ⟨188, 188, 15, 21, 3⟩, ⟨188, 189, 15, 17, 4⟩, ⟨189, 189, 13, 17, 1⟩, ⟨190, 190, 15, 21, 3⟩,
      ⟨190, 191, 15, 17, 4⟩, ⟨191, 191, 13, 17, 1⟩, ⟨192, 192, 15, 21, 3⟩, ⟨192, 193, 15, 17, 4⟩,
      ⟨193, 193, 13, 17, 1⟩, ⟨194, 194, 15, 21, 3⟩, ⟨194, 195, 15, 17, 4⟩, ⟨195, 195, 13, 17, 1⟩,
      ⟨196, 196, 15, 21, 3⟩, ⟨196, 197, 15, 17, 4⟩, ⟨197, 197, 13, 17, 1⟩, ⟨198, 198, 15, 21, 3⟩,
      ⟨198, 199, 15, 17, 4⟩, ⟨199, 199, 13, 17, 1⟩, ⟨200, 200, 15, 21, 3⟩, ⟨200, 201, 15, 17, 4⟩,
      ⟨201, 201, 13, 17, 1⟩, ⟨202, 202, 15, 21, 3⟩, ⟨202, 203, 15, 17, 4⟩, ⟨203, 203, 13, 17, 1⟩,
      ⟨204, 204, 20, 55, 3⟩, ⟨204, 205, 20, 21, 18⟩, ⟨205, 205, 15, 21, 19⟩,
      ⟨205, 206, 15, 17, 20⟩, ⟨206, 206, 13, 17, 14⟩, ⟨206, 207, 13, 18, 21⟩,
      ⟨207, 207, 16, 18, 22⟩, ⟨208, 208, 20, 55, 3⟩, ⟨208, 209, 20, 21, 18⟩,
      ⟨209, 209, 15, 21, 19⟩, ⟨209, 210, 15, 17, 20⟩, ⟨210, 210, 13, 17, 14⟩,
      ⟨210, 211, 13, 18, 21⟩, ⟨211, 211, 16, 18, 22⟩, ⟨212, 212, 20, 55, 3⟩,
      ⟨212, 213, 20, 21, 18⟩, ⟨213, 213, 15, 21, 19⟩, ⟨213, 214, 15, 17, 20⟩,
      ⟨214, 214, 13, 17, 14⟩, ⟨214, 215, 13, 18, 21⟩, ⟨215, 215, 16, 18, 22⟩,
      ⟨216, 216, 20, 55, 3⟩, ⟨216, 217, 20, 21, 18⟩, ⟨217, 217, 15, 21, 19⟩,
      ⟨217, 218, 15, 17, 20⟩, ⟨218, 218, 13, 17, 14⟩, ⟨218, 219, 13, 18, 21⟩,
      ⟨219, 219, 16, 18, 22⟩, ⟨220, 220, 17, 22, 0⟩, ⟨221, 221, 17, 22, 0⟩,
      ⟨222, 222, 17, 22, 0⟩, ⟨223, 223, 17, 22, 0⟩, ⟨224, 224, 17, 22, 0⟩, ⟨225, 225, 17, 22, 0⟩,
      ⟨226, 226, 17, 22, 0⟩, ⟨227, 227, 17, 22, 0⟩, ⟨228, 228, 17, 22, 0⟩, ⟨229, 229, 17, 22, 0⟩,
      ⟨230, 230, 21, 56, 0⟩, ⟨230, 231, 21, 22, 9⟩, ⟨231, 231, 17, 22, 5⟩,
      ⟨231, 232, 17, 19, 10⟩, ⟨232, 232, 18, 19, 11⟩, ⟨233, 233, 21, 56, 0⟩,
      ⟨233, 234, 21, 22, 9⟩, ⟨234, 234, 17, 22, 5⟩, ⟨234, 235, 17, 19, 10⟩,
      ⟨235, 235, 18, 19, 11⟩, ⟨236, 236, 21, 56, 0⟩, ⟨236, 237, 21, 22, 9⟩,
      ⟨237, 237, 17, 22, 5⟩, ⟨237, 238, 17, 19, 10⟩, ⟨238, 238, 18, 19, 11⟩,
      ⟨239, 239, 21, 56, 0⟩, ⟨239, 240, 21, 22, 9⟩, ⟨240, 240, 17, 22, 5⟩,
      ⟨240, 241, 17, 19, 10⟩, ⟨241, 241, 18, 19, 11⟩, ⟨242, 242, 21, 56, 0⟩,
      ⟨242, 243, 21, 22, 9⟩, ⟨243, 243, 17, 22, 5⟩, ⟨243, 244, 17, 19, 10⟩,
      ⟨244, 244, 18, 19, 11⟩, ⟨245, 245, 21, 56, 0⟩, ⟨245, 246, 21, 22, 9⟩,
      ⟨246, 246, 17, 22, 5⟩, ⟨246, 247, 17, 19, 10⟩, ⟨247, 247, 18, 19, 11⟩,
      ⟨248, 248, 22, 57, 3⟩, ⟨248, 249, 22, 51, 4⟩, ⟨249, 249, 19, 51, 1⟩, ⟨250, 250, 22, 57, 3⟩,
      ⟨250, 251, 22, 51, 4⟩, ⟨251, 251, 19, 51, 1⟩, ⟨252, 252, 22, 57, 3⟩, ⟨252, 253, 22, 51, 4⟩,
      ⟨253, 253, 19, 51, 1⟩, ⟨254, 254, 22, 57, 3⟩, ⟨254, 255, 22, 51, 4⟩, ⟨255, 255, 19, 51, 1⟩,
      ⟨256, 256, 51, 58, 0⟩]⟩]

/-- `recalc_triplet` in `nrg-recalc-QS.hpp:443-`, 1 channel(s): `qs-1ch-triplets.dat`, `qs-1ch-tripletp.dat`, `qs-1ch-tripletm.dat`. -/
def op_QS_1ch_triplet : OpTable where
  builtin := ⟨"QS", 1, fields_QS, tab_QS_1ch⟩
  kind := .triplet
  labs := labs_QS
  targets := [
    ⟨[.plus 0, .plus 0], [0, 3], some [
      ⟨1, 1, 0, 0, 0⟩, ⟨2, 2, 2, 2, 5⟩, ⟨2, 3, 2, 1, 10⟩, ⟨3, 2, 1, 2, 6⟩, ⟨3, 3, 1, 1, 39⟩,
      ⟨4, 4, 3, 3, 0⟩]⟩,
    ⟨[.plus 0, .plus 2], [0, 3], some [
      ⟨1, 1, 0, 26, 0⟩, ⟨2, 2, 2, 1, 40⟩, ⟨3, 2, 1, 1, 41⟩, ⟨3, 3, 1, 28, 0⟩, ⟨4, 4, 3, 4, 0⟩]⟩,
    ⟨[.plus 0, .plus (-2)], [0, 3], some [
      ⟨1, 1, 0, 27, 0⟩, ⟨2, 2, 2, 29, 0⟩, ⟨2, 3, 2, 2, 9⟩, ⟨3, 3, 1, 2, 5⟩, ⟨4, 4, 3, 6, 0⟩]⟩]

/-- `recalc_triplet` in `nrg-recalc-QS.hpp:443-`, 2 channel(s): `qs-2ch-triplets.dat`, `qs-2ch-tripletp.dat`, `qs-2ch-tripletm.dat`. -/
def op_QS_2ch_triplet : OpTable where
  builtin := ⟨"QS", 2, fields_QS, tab_QS_2ch⟩
  kind := .triplet
  labs := labs_QS
  targets := [
    ⟨[.plus 0, .plus 0], [0, 3], some [
      ⟨1, 1, 8, 8, 0⟩, ⟨2, 2, 10, 10, 5⟩, ⟨2, 3, 10, 9, 10⟩, ⟨3, 2, 9, 10, 6⟩, ⟨3, 3, 9, 9, 39⟩,
      ⟨4, 4, 10, 10, 5⟩, ⟨4, 5, 10, 9, 10⟩, ⟨5, 4, 9, 10, 6⟩, ⟨5, 5, 9, 9, 39⟩,
      ⟨6, 6, 11, 11, 0⟩, ⟨7, 7, 11, 11, 0⟩, ⟨8, 8, 11, 11, 0⟩, ⟨9, 9, 14, 14, 42⟩,
      ⟨9, 10, 14, 11, 43⟩, ⟨10, 9, 11, 14, 44⟩, ⟨10, 10, 11, 11, 45⟩, ⟨10, 11, 11, 12, 46⟩,
      ⟨11, 10, 12, 11, 47⟩, ⟨11, 11, 12, 12, 48⟩, ⟨12, 12, 15, 15, 5⟩, ⟨12, 13, 15, 13, 10⟩,
      ⟨13, 12, 13, 15, 6⟩, ⟨13, 13, 13, 13, 39⟩, ⟨14, 14, 15, 15, 5⟩, ⟨14, 15, 15, 13, 10⟩,
      ⟨15, 14, 13, 15, 6⟩, ⟨15, 15, 13, 13, 39⟩, ⟨16, 16, 17, 17, 0⟩]⟩,
    ⟨[.plus 0, .plus 2], [0, 3], some [
      ⟨1, 1, 8, 42, 0⟩, ⟨2, 2, 10, 9, 40⟩, ⟨3, 2, 9, 9, 41⟩, ⟨3, 3, 9, 44, 0⟩, ⟨4, 4, 10, 9, 40⟩,
      ⟨5, 4, 9, 9, 41⟩, ⟨5, 5, 9, 44, 0⟩, ⟨6, 6, 11, 12, 0⟩, ⟨7, 7, 11, 12, 0⟩,
      ⟨8, 8, 11, 12, 0⟩, ⟨9, 9, 14, 11, 49⟩, ⟨10, 9, 11, 11, 50⟩, ⟨10, 10, 11, 12, 48⟩,
      ⟨11, 9, 12, 11, 51⟩, ⟨11, 10, 12, 12, 52⟩, ⟨11, 11, 12, 46, 0⟩, ⟨12, 12, 15, 13, 40⟩,
      ⟨13, 12, 13, 13, 41⟩, ⟨13, 13, 13, 16, 0⟩, ⟨14, 14, 15, 13, 40⟩, ⟨15, 14, 13, 13, 41⟩,
      ⟨15, 15, 13, 16, 0⟩, ⟨16, 16, 17, 18, 0⟩]⟩,
    ⟨[.plus 0, .plus (-2)], [0, 3], some [
      ⟨1, 1, 8, 43, 0⟩, ⟨2, 2, 10, 45, 0⟩, ⟨2, 3, 10, 10, 9⟩, ⟨3, 3, 9, 10, 5⟩,
      ⟨4, 4, 10, 45, 0⟩, ⟨4, 5, 10, 10, 9⟩, ⟨5, 5, 9, 10, 5⟩, ⟨6, 6, 11, 14, 0⟩,
      ⟨7, 7, 11, 14, 0⟩, ⟨8, 8, 11, 14, 0⟩, ⟨9, 9, 14, 47, 0⟩, ⟨9, 10, 14, 14, 53⟩,
      ⟨9, 11, 14, 11, 54⟩, ⟨10, 10, 11, 14, 42⟩, ⟨10, 11, 11, 11, 43⟩, ⟨11, 11, 12, 11, 55⟩,
      ⟨12, 12, 15, 20, 0⟩, ⟨12, 13, 15, 15, 9⟩, ⟨13, 13, 13, 15, 5⟩, ⟨14, 14, 15, 20, 0⟩,
      ⟨14, 15, 15, 15, 9⟩, ⟨15, 15, 13, 15, 5⟩, ⟨16, 16, 17, 21, 0⟩]⟩]

/-- `recalc_triplet` in `nrg-recalc-QS.hpp:443-`, 3 channel(s): `qs-3ch-triplets.dat`, `qs-3ch-tripletp.dat`, `qs-3ch-tripletm.dat`. -/
def op_QS_3ch_triplet : OpTable where
  builtin := ⟨"QS", 3, fields_QS, tab_QS_3ch⟩
  kind := .triplet
  labs := labs_QS
  targets := [
    ⟨[.plus 0, .plus 0], [0, 3], some [
      ⟨1, 1, 23, 23, 0⟩, ⟨2, 2, 25, 25, 5⟩, ⟨2, 3, 25, 24, 10⟩, ⟨3, 2, 24, 25, 6⟩,
      ⟨3, 3, 24, 24, 39⟩, ⟨4, 4, 25, 25, 5⟩, ⟨4, 5, 25, 24, 10⟩, ⟨5, 4, 24, 25, 6⟩,
      ⟨5, 5, 24, 24, 39⟩, ⟨6, 6, 25, 25, 5⟩, ⟨6, 7, 25, 24, 10⟩, ⟨7, 6, 24, 25, 6⟩,
      ⟨7, 7, 24, 24, 39⟩, ⟨8, 8, 0, 0, 0⟩, ⟨9, 9, 0, 0, 0⟩, ⟨10, 10, 0, 0, 0⟩, ⟨11, 11, 0, 0, 0⟩,
      ⟨12, 12, 0, 0, 0⟩, ⟨13, 13, 0, 0, 0⟩, ⟨14, 14, 27, 27, 42⟩, ⟨14, 15, 27, 0, 43⟩,
      ⟨15, 14, 0, 27, 44⟩, ⟨15, 15, 0, 0, 45⟩, ⟨15, 16, 0, 26, 46⟩, ⟨16, 15, 26, 0, 47⟩,
      ⟨16, 16, 26, 26, 48⟩, ⟨17, 17, 27, 27, 42⟩, ⟨17, 18, 27, 0, 43⟩, ⟨18, 17, 0, 27, 44⟩,
      ⟨18, 18, 0, 0, 45⟩, ⟨18, 19, 0, 26, 46⟩, ⟨19, 18, 26, 0, 47⟩, ⟨19, 19, 26, 26, 48⟩,
      ⟨20, 20, 27, 27, 42⟩, ⟨20, 21, 27, 0, 43⟩, ⟨21, 20, 0, 27, 44⟩, ⟨21, 21, 0, 0, 45⟩,
      ⟨21, 22, 0, 26, 46⟩, ⟨22, 21, 26, 0, 47⟩, ⟨22, 22, 26, 26, 48⟩, ⟨23, 23, 2, 2, 5⟩,
      ⟨23, 24, 2, 1, 10⟩, ⟨24, 23, 1, 2, 6⟩, ⟨24, 24, 1, 1, 39⟩, ⟨25, 25, 2, 2, 5⟩,
      ⟨25, 26, 2, 1, 10⟩, ⟨26, 25, 1, 2, 6⟩, ⟨26, 26, 1, 1, 39⟩, ⟨27, 27, 2, 2, 5⟩,
      ⟨27, 28, 2, 1, 10⟩, ⟨28, 27, 1, 2, 6⟩, ⟨28, 28, 1, 1, 39⟩, ⟨29, 29, 2, 2, 5⟩,
      ⟨29, 30, 2, 1, 10⟩, ⟨30, 29, 1, 2, 6⟩, ⟨30, 30, 1, 1, 39⟩, ⟨31, 31, 2, 2, 5⟩,
      ⟨31, 32, 2, 1, 10⟩, ⟨32, 31, 1, 2, 6⟩, ⟨32, 32, 1, 1, 39⟩, ⟨33, 33, 2, 2, 5⟩,
      ⟨33, 34, 2, 1, 10⟩, ⟨34, 33, 1, 2, 6⟩, ⟨34, 34, 1, 1, 39⟩, ⟨35, 35, 2, 2, 5⟩,
      ⟨35, 36, 2, 1, 10⟩, ⟨36, 35, 1, 2, 6⟩, ⟨36, 36, 1, 1, 39⟩, ⟨37, 37, 2, 2, 5⟩,
      ⟨37, 38, 2, 1, 10⟩, ⟨38, 37, 1, 2, 6⟩, ⟨38, 38, 1, 1, 39⟩, ⟨39, 39, 29, 29, 56⟩,
      ⟨39, 40, 29, 2, 57⟩, ⟨40, 39, 2, 29, 58⟩, ⟨40, 40, 2, 2, 59⟩, ⟨40, 41, 2, 1, 60⟩,
      ⟨41, 40, 1, 2, 61⟩, ⟨41, 41, 1, 1, 62⟩, ⟨41, 42, 1, 28, 63⟩, ⟨42, 41, 28, 1, 64⟩,
      ⟨42, 42, 28, 28, 65⟩, ⟨43, 43, 3, 3, 0⟩, ⟨44, 44, 3, 3, 0⟩, ⟨45, 45, 3, 3, 0⟩,
      ⟨46, 46, 3, 3, 0⟩, ⟨47, 47, 3, 3, 0⟩, ⟨48, 48, 3, 3, 0⟩, ⟨49, 49, 6, 6, 42⟩,
      ⟨49, 50, 6, 3, 43⟩, ⟨50, 49, 3, 6, 44⟩, ⟨50, 50, 3, 3, 45⟩, ⟨50, 51, 3, 4, 46⟩,
      ⟨51, 50, 4, 3, 47⟩, ⟨51, 51, 4, 4, 48⟩, ⟨52, 52, 6, 6, 42⟩, ⟨52, 53, 6, 3, 43⟩,
      ⟨53, 52, 3, 6, 44⟩, ⟨53, 53, 3, 3, 45⟩, ⟨53, 54, 3, 4, 46⟩, ⟨54, 53, 4, 3, 47⟩,
      ⟨54, 54, 4, 4, 48⟩, ⟨55, 55, 6, 6, 42⟩, ⟨55, 56, 6, 3, 43⟩, ⟨56, 55, 3, 6, 44⟩,
      ⟨56, 56, 3, 3, 45⟩, ⟨56, 57, 3, 4, 46⟩, ⟨57, 56, 4, 3, 47⟩, ⟨57, 57, 4, 4, 48⟩,
      ⟨58, 58, 7, 7, 5⟩, ⟨58, 59, 7, 5, 10⟩, ⟨59, 58, 5, 7, 6⟩, ⟨59, 59, 5, 5, 39⟩,
      ⟨60, 60, 7, 7, 5⟩, ⟨60, 61, 7, 5, 10⟩, ⟨61, 60, 5, 7, 6⟩, ⟨61, 61, 5, 5, 39⟩,
      ⟨62, 62, 7, 7, 5⟩, ⟨62, 63, 7, 5, 10⟩, ⟨63, 62, 5, 7, 6⟩, ⟨63, 63, 5, 5, 39⟩,
      ⟨64, 64, 32, 32, 0⟩]⟩,
    ⟨[.plus 0, .plus 2], [0, 3], some [
      ⟨1, 1, 23, 59, 0⟩, ⟨2, 2, 25, 24, 40⟩, ⟨3, 2, 24, 24, 41⟩, ⟨3, 3, 24, 60, 0⟩,
      ⟨4, 4, 25, 24, 40⟩, ⟨5, 4, 24, 24, 41⟩, ⟨5, 5, 24, 60, 0⟩, ⟨6, 6, 25, 24, 40⟩,
      ⟨7, 6, 24, 24, 41⟩, ⟨7, 7, 24, 60, 0⟩, ⟨8, 8, 0, 26, 0⟩, ⟨9, 9, 0, 26, 0⟩,
      ⟨10, 10, 0, 26, 0⟩, ⟨11, 11, 0, 26, 0⟩, ⟨12, 12, 0, 26, 0⟩, ⟨13, 13, 0, 26, 0⟩,
      ⟨14, 14, 27, 0, 49⟩, ⟨15, 14, 0, 0, 50⟩, ⟨15, 15, 0, 26, 48⟩, ⟨16, 14, 26, 0, 51⟩,
      ⟨16, 15, 26, 26, 52⟩, ⟨16, 16, 26, 61, 0⟩, ⟨17, 17, 27, 0, 49⟩, ⟨18, 17, 0, 0, 50⟩,
      ⟨18, 18, 0, 26, 48⟩, ⟨19, 17, 26, 0, 51⟩, ⟨19, 18, 26, 26, 52⟩, ⟨19, 19, 26, 61, 0⟩,
      ⟨20, 20, 27, 0, 49⟩, ⟨21, 20, 0, 0, 50⟩, ⟨21, 21, 0, 26, 48⟩, ⟨22, 20, 26, 0, 51⟩,
      ⟨22, 21, 26, 26, 52⟩, ⟨22, 22, 26, 61, 0⟩, ⟨23, 23, 2, 1, 40⟩, ⟨24, 23, 1, 1, 41⟩,
      ⟨24, 24, 1, 28, 0⟩, ⟨25, 25, 2, 1, 40⟩, ⟨26, 25, 1, 1, 41⟩, ⟨26, 26, 1, 28, 0⟩,
      ⟨27, 27, 2, 1, 40⟩, ⟨28, 27, 1, 1, 41⟩, ⟨28, 28, 1, 28, 0⟩, ⟨29, 29, 2, 1, 40⟩,
      ⟨30, 29, 1, 1, 41⟩, ⟨30, 30, 1, 28, 0⟩, ⟨31, 31, 2, 1, 40⟩, ⟨32, 31, 1, 1, 41⟩,
      ⟨32, 32, 1, 28, 0⟩, ⟨33, 33, 2, 1, 40⟩, ⟨34, 33, 1, 1, 41⟩, ⟨34, 34, 1, 28, 0⟩,
      ⟨35, 35, 2, 1, 40⟩, ⟨36, 35, 1, 1, 41⟩, ⟨36, 36, 1, 28, 0⟩, ⟨37, 37, 2, 1, 40⟩,
      ⟨38, 37, 1, 1, 41⟩, ⟨38, 38, 1, 28, 0⟩, ⟨39, 39, 29, 2, 66⟩, ⟨40, 39, 2, 2, 67⟩,
      ⟨40, 40, 2, 1, 68⟩, ⟨41, 39, 1, 2, 69⟩, ⟨41, 40, 1, 1, 70⟩, ⟨41, 41, 1, 28, 71⟩,
      ⟨42, 40, 28, 1, 72⟩, ⟨42, 41, 28, 28, 73⟩, ⟨42, 42, 28, 62, 0⟩, ⟨43, 43, 3, 4, 0⟩,
      ⟨44, 44, 3, 4, 0⟩, ⟨45, 45, 3, 4, 0⟩, ⟨46, 46, 3, 4, 0⟩, ⟨47, 47, 3, 4, 0⟩,
      ⟨48, 48, 3, 4, 0⟩, ⟨49, 49, 6, 3, 49⟩, ⟨50, 49, 3, 3, 50⟩, ⟨50, 50, 3, 4, 48⟩,
      ⟨51, 49, 4, 3, 51⟩, ⟨51, 50, 4, 4, 52⟩, ⟨51, 51, 4, 30, 0⟩, ⟨52, 52, 6, 3, 49⟩,
      ⟨53, 52, 3, 3, 50⟩, ⟨53, 53, 3, 4, 48⟩, ⟨54, 52, 4, 3, 51⟩, ⟨54, 53, 4, 4, 52⟩,
      ⟨54, 54, 4, 30, 0⟩, ⟨55, 55, 6, 3, 49⟩, ⟨56, 55, 3, 3, 50⟩, ⟨56, 56, 3, 4, 48⟩,
      ⟨57, 55, 4, 3, 51⟩, ⟨57, 56, 4, 4, 52⟩, ⟨57, 57, 4, 30, 0⟩, ⟨58, 58, 7, 5, 40⟩,
      ⟨59, 58, 5, 5, 41⟩, ⟨59, 59, 5, 31, 0⟩, ⟨60, 60, 7, 5, 40⟩, ⟨61, 60, 5, 5, 41⟩,
      ⟨61, 61, 5, 31, 0⟩, ⟨62, 62, 7, 5, 40⟩, ⟨63, 62, 5, 5, 41⟩, ⟨63, 63, 5, 31, 0⟩,
      ⟨64, 64, 32, 33, 0⟩]⟩,
    ⟨[.plus 0, .plus (-2)], [0, 3], some [
      ⟨1, 1, 23, 63, 0⟩, ⟨2, 2, 25, 64, 0⟩, ⟨2, 3, 25, 25, 9⟩, ⟨3, 3, 24, 25, 5⟩,
      ⟨4, 4, 25, 64, 0⟩, ⟨4, 5, 25, 25, 9⟩, ⟨5, 5, 24, 25, 5⟩, ⟨6, 6, 25, 64, 0⟩,
      ⟨6, 7, 25, 25, 9⟩, ⟨7, 7, 24, 25, 5⟩, ⟨8, 8, 0, 27, 0⟩, ⟨9, 9, 0, 27, 0⟩,
      ⟨10, 10, 0, 27, 0⟩, ⟨11, 11, 0, 27, 0⟩, ⟨12, 12, 0, 27, 0⟩, ⟨13, 13, 0, 27, 0⟩,
      ⟨14, 14, 27, 65, 0⟩, ⟨14, 15, 27, 27, 53⟩, ⟨14, 16, 27, 0, 54⟩, ⟨15, 15, 0, 27, 42⟩,
      ⟨15, 16, 0, 0, 43⟩, ⟨16, 16, 26, 0, 55⟩, ⟨17, 17, 27, 65, 0⟩, ⟨17, 18, 27, 27, 53⟩,
      ⟨17, 19, 27, 0, 54⟩, ⟨18, 18, 0, 27, 42⟩, ⟨18, 19, 0, 0, 43⟩, ⟨19, 19, 26, 0, 55⟩,
      ⟨20, 20, 27, 65, 0⟩, ⟨20, 21, 27, 27, 53⟩, ⟨20, 22, 27, 0, 54⟩, ⟨21, 21, 0, 27, 42⟩,
      ⟨21, 22, 0, 0, 43⟩, ⟨22, 22, 26, 0, 55⟩, ⟨23, 23, 2, 29, 0⟩, ⟨23, 24, 2, 2, 9⟩,
      ⟨24, 24, 1, 2, 5⟩, ⟨25, 25, 2, 29, 0⟩, ⟨25, 26, 2, 2, 9⟩, ⟨26, 26, 1, 2, 5⟩,
      ⟨27, 27, 2, 29, 0⟩, ⟨27, 28, 2, 2, 9⟩, ⟨28, 28, 1, 2, 5⟩, ⟨29, 29, 2, 29, 0⟩,
      ⟨29, 30, 2, 2, 9⟩, ⟨30, 30, 1, 2, 5⟩, ⟨31, 31, 2, 29, 0⟩, ⟨31, 32, 2, 2, 9⟩,
      ⟨32, 32, 1, 2, 5⟩, ⟨33, 33, 2, 29, 0⟩, ⟨33, 34, 2, 2, 9⟩, ⟨34, 34, 1, 2, 5⟩,
      ⟨35, 35, 2, 29, 0⟩, ⟨35, 36, 2, 2, 9⟩, ⟨36, 36, 1, 2, 5⟩, ⟨37, 37, 2, 29, 0⟩,
      ⟨37, 38, 2, 2, 9⟩, ⟨38, 38, 1, 2, 5⟩, ⟨39, 39, 29, 66, 0⟩, ⟨39, 40, 29, 29, 74⟩,
      ⟨39, 41, 29, 2, 75⟩, ⟨40, 40, 2, 29, 56⟩, ⟨40, 41, 2, 2, 76⟩, ⟨40, 42, 2, 1, 69⟩,
      ⟨41, 41, 1, 2, 77⟩, ⟨41, 42, 1, 1, 78⟩, ⟨42, 42, 28, 1, 79⟩, ⟨43, 43, 3, 6, 0⟩,
      ⟨44, 44, 3, 6, 0⟩, ⟨45, 45, 3, 6, 0⟩, ⟨46, 46, 3, 6, 0⟩, ⟨47, 47, 3, 6, 0⟩,
      ⟨48, 48, 3, 6, 0⟩, ⟨49, 49, 6, 35, 0⟩, ⟨49, 50, 6, 6, 53⟩, ⟨49, 51, 6, 3, 54⟩,
      ⟨50, 50, 3, 6, 42⟩, ⟨50, 51, 3, 3, 43⟩, ⟨51, 51, 4, 3, 55⟩, ⟨52, 52, 6, 35, 0⟩,
      ⟨52, 53, 6, 6, 53⟩, ⟨52, 54, 6, 3, 54⟩, ⟨53, 53, 3, 6, 42⟩, ⟨53, 54, 3, 3, 43⟩,
      ⟨54, 54, 4, 3, 55⟩, ⟨55, 55, 6, 35, 0⟩, ⟨55, 56, 6, 6, 53⟩, ⟨55, 57, 6, 3, 54⟩,
      ⟨56, 56, 3, 6, 42⟩, ⟨56, 57, 3, 3, 43⟩, ⟨57, 57, 4, 3, 55⟩, ⟨58, 58, 7, 36, 0⟩,
      ⟨58, 59, 7, 7, 9⟩, ⟨59, 59, 5, 7, 5⟩, ⟨60, 60, 7, 36, 0⟩, ⟨60, 61, 7, 7, 9⟩,
      ⟨61, 61, 5, 7, 5⟩, ⟨62, 62, 7, 36, 0⟩, ⟨62, 63, 7, 7, 9⟩, ⟨63, 63, 5, 7, 5⟩,
      ⟨64, 64, 32, 37, 0⟩]⟩]

/-- `recalc_triplet` in `nrg-recalc-QS.hpp:443-`, 4 channel(s): `qs-4ch-triplets.dat`, `qs-4ch-tripletp.dat`, `qs-4ch-tripletm.dat`. -/
def op_QS_4ch_triplet : OpTable where
  builtin := ⟨"QS", 4, fields_QS, tab_QS_4ch⟩
  kind := .triplet
  labs := labs_QS
  targets := [
    ⟨[.plus 0, .plus 0], [0, 3], some [
      ⟨1, 1, 39, 39, 0⟩, ⟨2, 2, 41, 41, 5⟩, ⟨2, 3, 41, 40, 10⟩, ⟨3, 2, 40, 41, 6⟩,
      ⟨3, 3, 40, 40, 39⟩, ⟨4, 4, 41, 41, 5⟩, ⟨4, 5, 41, 40, 10⟩, ⟨5, 4, 40, 41, 6⟩,
      ⟨5, 5, 40, 40, 39⟩, ⟨6, 6, 41, 41, 5⟩, ⟨6, 7, 41, 40, 10⟩, ⟨7, 6, 40, 41, 6⟩,
      ⟨7, 7, 40, 40, 39⟩, ⟨8, 8, 41, 41, 5⟩, ⟨8, 9, 41, 40, 10⟩, ⟨9, 8, 40, 41, 6⟩,
      ⟨9, 9, 40, 40, 39⟩, ⟨10, 10, 8, 8, 0⟩, ⟨11, 11, 8, 8, 0⟩, ⟨12, 12, 8, 8, 0⟩,
      ⟨13, 13, 8, 8, 0⟩, ⟨14, 14, 8, 8, 0⟩, ⟨15, 15, 8, 8, 0⟩, ⟨16, 16, 8, 8, 0⟩,
      ⟨17, 17, 8, 8, 0⟩, ⟨18, 18, 8, 8, 0⟩, ⟨19, 19, 8, 8, 0⟩, ⟨20, 20, 43, 43, 42⟩,
      ⟨20, 21, 43, 8, 43⟩, ⟨21, 20, 8, 43, 44⟩, ⟨21, 21, 8, 8, 45⟩, ⟨21, 22, 8, 42, 46⟩,
      ⟨22, 21, 42, 8, 47⟩, ⟨22, 22, 42, 42, 48⟩, ⟨23, 23, 43, 43, 42⟩, ⟨23, 24, 43, 8, 43⟩,
      ⟨24, 23, 8, 43, 44⟩, ⟨24, 24, 8, 8, 45⟩, ⟨24, 25, 8, 42, 46⟩, ⟨25, 24, 42, 8, 47⟩,
      ⟨25, 25, 42, 42, 48⟩, ⟨26, 26, 43, 43, 42⟩, ⟨26, 27, 43, 8, 43⟩, ⟨27, 26, 8, 43, 44⟩,
      ⟨27, 27, 8, 8, 45⟩, ⟨27, 28, 8, 42, 46⟩, ⟨28, 27, 42, 8, 47⟩, ⟨28, 28, 42, 42, 48⟩,
      ⟨29, 29, 43, 43, 42⟩, ⟨29, 30, 43, 8, 43⟩, ⟨30, 29, 8, 43, 44⟩, ⟨30, 30, 8, 8, 45⟩,
      ⟨30, 31, 8, 42, 46⟩, ⟨31, 30, 42, 8, 47⟩, ⟨31, 31, 42, 42, 48⟩, ⟨32, 32, 43, 43, 42⟩,
      ⟨32, 33, 43, 8, 43⟩, ⟨33, 32, 8, 43, 44⟩, ⟨33, 33, 8, 8, 45⟩, ⟨33, 34, 8, 42, 46⟩,
      ⟨34, 33, 42, 8, 47⟩, ⟨34, 34, 42, 42, 48⟩, ⟨35, 35, 43, 43, 42⟩, ⟨35, 36, 43, 8, 43⟩,
      ⟨36, 35, 8, 43, 44⟩, ⟨36, 36, 8, 8, 45⟩, ⟨36, 37, 8, 42, 46⟩, ⟨37, 36, 42, 8, 47⟩,
      ⟨37, 37, 42, 42, 48⟩, ⟨38, 38, 10, 10, 5⟩, ⟨38, 39, 10, 9, 10⟩, ⟨39, 38, 9, 10, 6⟩,
      ⟨39, 39, 9, 9, 39⟩, ⟨40, 40, 10, 10, 5⟩, ⟨40, 41, 10, 9, 10⟩, ⟨41, 40, 9, 10, 6⟩,
      ⟨41, 41, 9, 9, 39⟩, ⟨42, 42, 10, 10, 5⟩, ⟨42, 43, 10, 9, 10⟩, ⟨43, 42, 9, 10, 6⟩,
      ⟨43, 43, 9, 9, 39⟩, ⟨44, 44, 10, 10, 5⟩, ⟨44, 45, 10, 9, 10⟩, ⟨45, 44, 9, 10, 6⟩,
      ⟨45, 45, 9, 9, 39⟩, ⟨46, 46, 10, 10, 5⟩, ⟨46, 47, 10, 9, 10⟩, ⟨47, 46, 9, 10, 6⟩,
      ⟨47, 47, 9, 9, 39⟩, ⟨48, 48, 10, 10, 5⟩, ⟨48, 49, 10, 9, 10⟩, ⟨49, 48, 9, 10, 6⟩,
      ⟨49, 49, 9, 9, 39⟩, ⟨50, 50, 10, 10, 5⟩, ⟨50, 51, 10, 9, 10⟩, ⟨51, 50, 9, 10, 6⟩,
      ⟨51, 51, 9, 9, 39⟩, ⟨52, 52, 10, 10, 5⟩, ⟨52, 53, 10, 9, 10⟩, ⟨53, 52, 9, 10, 6⟩,
      ⟨53, 53, 9, 9, 39⟩, ⟨54, 54, 10, 10, 5⟩, ⟨54, 55, 10, 9, 10⟩, ⟨55, 54, 9, 10, 6⟩,
      ⟨55, 55, 9, 9, 39⟩, ⟨56, 56, 10, 10, 5⟩, ⟨56, 57, 10, 9, 10⟩, ⟨57, 56, 9, 10, 6⟩,
      ⟨57, 57, 9, 9, 39⟩, ⟨58, 58, 10, 10, 5⟩, ⟨58, 59, 10, 9, 10⟩, ⟨59, 58, 9, 10, 6⟩,
      ⟨59, 59, 9, 9, 39⟩, ⟨60, 60, 10, 10, 5⟩, ⟨60, 61, 10, 9, 10⟩, ⟨61, 60, 9, 10, 6⟩,
      ⟨61, 61, 9, 9, 39⟩, ⟨62, 62, 10, 10, 5⟩, ⟨62, 63, 10, 9, 10⟩, ⟨63, 62, 9, 10, 6⟩,
      ⟨63, 63, 9, 9, 39⟩, ⟨64, 64, 10, 10, 5⟩, ⟨64, 65, 10, 9, 10⟩, ⟨65, 64, 9, 10, 6⟩,
      ⟨65, 65, 9, 9, 39⟩, ⟨66, 66, 10, 10, 5⟩, ⟨66, 67, 10, 9, 10⟩, ⟨67, 66, 9, 10, 6⟩,
      ⟨67, 67, 9, 9, 39⟩, ⟨68, 68, 10, 10, 5⟩, ⟨68, 69, 10, 9, 10⟩, ⟨69, 68, 9, 10, 6⟩,
      ⟨69, 69, 9, 9, 39⟩, ⟨70, 70, 10, 10, 5⟩, ⟨70, 71, 10, 9, 10⟩, ⟨71, 70, 9, 10, 6⟩,
      ⟨71, 71, 9, 9, 39⟩, ⟨72, 72, 10, 10, 5⟩, ⟨72, 73, 10, 9, 10⟩, ⟨73, 72, 9, 10, 6⟩,
      ⟨73, 73, 9, 9, 39⟩, ⟨74, 74, 10, 10, 5⟩, ⟨74, 75, 10, 9, 10⟩, ⟨75, 74, 9, 10, 6⟩,
      ⟨75, 75, 9, 9, 39⟩, ⟨76, 76, 10, 10, 5⟩, ⟨76, 77, 10, 9, 10⟩, ⟨77, 76, 9, 10, 6⟩,
      ⟨77, 77, 9, 9, 39⟩, ⟨78, 78, 45, 45, 56⟩, ⟨78, 79, 45, 10, 57⟩, ⟨79, 78, 10, 45, 58⟩,
      ⟨79, 79, 10, 10, 59⟩, ⟨79, 80, 10, 9, 60⟩, ⟨80, 79, 9, 10, 61⟩, ⟨80, 80, 9, 9, 62⟩,
      ⟨80, 81, 9, 44, 63⟩, ⟨81, 80, 44, 9, 64⟩, ⟨81, 81, 44, 44, 65⟩, ⟨82, 82, 45, 45, 56⟩,
      ⟨82, 83, 45, 10, 57⟩, ⟨83, 82, 10, 45, 58⟩, ⟨83, 83, 10, 10, 59⟩, ⟨83, 84, 10, 9, 60⟩,
      ⟨84, 83, 9, 10, 61⟩, ⟨84, 84, 9, 9, 62⟩, ⟨84, 85, 9, 44, 63⟩, ⟨85, 84, 44, 9, 64⟩,
      ⟨85, 85, 44, 44, 65⟩, ⟨86, 86, 45, 45, 56⟩, ⟨86, 87, 45, 10, 57⟩, ⟨87, 86, 10, 45, 58⟩,
      ⟨87, 87, 10, 10, 59⟩, ⟨87, 88, 10, 9, 60⟩, ⟨88, 87, 9, 10, 61⟩, ⟨88, 88, 9, 9, 62⟩,
      ⟨88, 89, 9, 44, 63⟩, ⟨89, 88, 44, 9, 64⟩, ⟨89, 89, 44, 44, 65⟩, ⟨90, 90, 45, 45, 56⟩,
      ⟨90, 91, 45, 10, 57⟩, ⟨91, 90, 10, 45, 58⟩, ⟨91, 91, 10, 10, 59⟩, ⟨91, 92, 10, 9, 60⟩,
      ⟨92, 91, 9, 10, 61⟩, ⟨92, 92, 9, 9, 62⟩, ⟨92, 93, 9, 44, 63⟩, ⟨93, 92, 44, 9, 64⟩,
      ⟨93, 93, 44, 44, 65⟩, ⟨94, 94, 11, 11, 0⟩, ⟨95, 95, 11, 11, 0⟩, ⟨96, 96, 11, 11, 0⟩,
      ⟨97, 97, 11, 11, 0⟩, ⟨98, 98, 11, 11, 0⟩, ⟨99, 99, 11, 11, 0⟩, ⟨100, 100, 11, 11, 0⟩,
      ⟨101, 101, 11, 11, 0⟩, ⟨102, 102, 11, 11, 0⟩, ⟨103, 103, 11, 11, 0⟩, ⟨104, 104, 11, 11, 0⟩,
      ⟨105, 105, 11, 11, 0⟩, ⟨106, 106, 11, 11, 0⟩, ⟨107, 107, 11, 11, 0⟩, ⟨108, 108, 11, 11, 0⟩,
      ⟨109, 109, 11, 11, 0⟩, ⟨110, 110, 11, 11, 0⟩, ⟨111, 111, 11, 11, 0⟩, ⟨112, 112, 11, 11, 0⟩,
      ⟨113, 113, 11, 11, 0⟩, ⟨114, 114, 14, 14, 42⟩, ⟨114, 115, 14, 11, 43⟩,
      ⟨115, 114, 11, 14, 44⟩, ⟨115, 115, 11, 11, 45⟩, ⟨115, 116, 11, 12, 46⟩,
      ⟨116, 115, 12, 11, 47⟩, ⟨116, 116, 12, 12, 48⟩, ⟨117, 117, 14, 14, 42⟩,
      ⟨117, 118, 14, 11, 43⟩, ⟨118, 117, 11, 14, 44⟩, ⟨118, 118, 11, 11, 45⟩,
      ⟨118, 119, 11, 12, 46⟩, ⟨119, 118, 12, 11, 47⟩, ⟨119, 119, 12, 12, 48⟩,
      ⟨120, 120, 14, 14, 42⟩, ⟨120, 121, 14, 11, 43⟩, ⟨121, 120, 11, 14, 44⟩,
      ⟨121, 121, 11, 11, 45⟩, ⟨121, 122, 11, 12, 46⟩, ⟨122, 121, 12, 11, 47⟩,
      ⟨122, 122, 12, 12, 48⟩, ⟨123, 123, 14, 14, 42⟩, ⟨123, 124, 14, 11, 43⟩,
      ⟨124, 123, 11, 14, 44⟩, ⟨124, 124, 11, 11, 45⟩, ⟨124, 125, 11, 12, 46⟩,
      ⟨125, 124, 12, 11, 47⟩, ⟨125, 125, 12, 12, 48⟩, ⟨126, 126, 14, 14, 42⟩,
      ⟨126, 127, 14, 11, 43⟩, ⟨127, 126, 11, 14, 44⟩, ⟨127, 127, 11, 11, 45⟩,
      ⟨127, 128, 11, 12, 46⟩, ⟨128, 127, 12, 11, 47⟩, ⟨128, 128, 12, 12, 48⟩,
      ⟨129, 129, 14, 14, 42⟩, ⟨129, 130, 14, 11, 43⟩, ⟨130, 129, 11, 14, 44⟩,
      ⟨130, 130, 11, 11, 45⟩, ⟨130, 131, 11, 12, 46⟩, ⟨131, 130, 12, 11, 47⟩,
      ⟨131, 131, 12, 12, 48⟩, ⟨132, 132, 14, 14, 42⟩, ⟨132, 133, 14, 11, 43⟩,
      ⟨133, 132, 11, 14, 44⟩, ⟨133, 133, 11, 11, 45⟩, ⟨133, 134, 11, 12, 46⟩,
      ⟨134, 133, 12, 11, 47⟩, ⟨134, 134, 12, 12, 48⟩, ⟨135, 135, 14, 14, 42⟩,
      ⟨135, 136, 14, 11, 43⟩, ⟨136, 135, 11, 14, 44⟩, ⟨136, 136, 11, 11, 45⟩,
      ⟨136, 137, 11, 12, 46⟩, ⟨137, 136, 12, 11, 47⟩, ⟨137, 137, 12, 12, 48⟩,
      ⟨138, 138, 14, 14, 42⟩, ⟨138, 139, 14, 11, 43⟩, ⟨139, 138, 11, 14, 44⟩,
      ⟨139, 139, 11, 11, 45⟩, ⟨139, 140, 11, 12, 46⟩, ⟨140, 139, 12, 11, 47⟩,
      ⟨140, 140, 12, 12, 48⟩, ⟨141, 141, 14, 14, 42⟩, ⟨141, 142, 14, 11, 43⟩,
      ⟨142, 141, 11, 14, 44⟩, ⟨142, 142, 11, 11, 45⟩, ⟨142, 143, 11, 12, 46⟩,
      ⟨143, 142, 12, 11, 47⟩, ⟨143, 143, 12, 12, 48⟩, ⟨144, 144, 14, 14, 42⟩,
      ⟨144, 145, 14, 11, 43⟩, ⟨145, 144, 11, 14, 44⟩, ⟨145, 145, 11, 11, 45⟩,
      ⟨145, 146, 11, 12, 46⟩, ⟨146, 145, 12, 11, 47⟩, ⟨146, 146, 12, 12, 48⟩,
      ⟨147, 147, 14, 14, 42⟩, ⟨147, 148, 14, 11, 43⟩, ⟨148, 147, 11, 14, 44⟩,
      ⟨148, 148, 11, 11, 45⟩, ⟨148, 149, 11, 12, 46⟩, ⟨149, 148, 12, 11, 47⟩,
      ⟨149, 149, 12, 12, 48⟩, ⟨150, 150, 14, 14, 42⟩, ⟨150, 151, 14, 11, 43⟩,
      ⟨151, 150, 11, 14, 44⟩, ⟨151, 151, 11, 11, 45⟩, ⟨151, 152, 11, 12, 46⟩,
      ⟨152, 151, 12, 11, 47⟩, ⟨152, 152, 12, 12, 48⟩, ⟨153, 153, 14, 14, 42⟩,
      ⟨153, 154, 14, 11, 43⟩, ⟨154, 153, 11, 14, 44⟩, ⟨154, 154, 11, 11, 45⟩,
      ⟨154, 155, 11, 12, 46⟩, ⟨155, 154, 12, 11, 47⟩, ⟨155, 155, 12, 12, 48⟩,
      ⟨156, 156, 14, 14, 42⟩, ⟨156, 157, 14, 11, 43⟩, ⟨157, 156, 11, 14, 44⟩,
      ⟨157, 157, 11, 11, 45⟩, ⟨157, 158, 11, 12, 46⟩, ⟨158, 157, 12, 11, 47⟩,
      ⟨158, 158, 12, 12, 48⟩, ⟨159, 159, 47, 47, 80⟩, ⟨159, 160, 47, 14, 81⟩,
      ⟨160, 159, 14, 47, 82⟩, ⟨160, 160, 14, 14, 83⟩, ⟨160, 161, 14, 11, 84⟩,
      ⟨161, 160, 11, 14, 85⟩, ⟨161, 161, 11, 11, 86⟩, ⟨161, 162, 11, 12, 87⟩,
      ⟨162, 161, 12, 11, 88⟩, ⟨162, 162, 12, 12, 89⟩, ⟨162, 163, 12, 46, 90⟩,
      ⟨163, 162, 46, 12, 91⟩, ⟨163, 163, 46, 46, 92⟩, ⟨164, 164, 15, 15, 5⟩,
      ⟨164, 165, 15, 13, 10⟩, ⟨165, 164, 13, 15, 6⟩, ⟨165, 165, 13, 13, 39⟩,
      ⟨166, 166, 15, 15, 5⟩, ⟨166, 167, 15, 13, 10⟩, ⟨167, 166, 13, 15, 6⟩,
      ⟨167, 167, 13, 13, 39⟩, ⟨168, 168, 15, 15, 5⟩, ⟨168, 169, 15, 13, 10⟩,
      ⟨169, 168, 13, 15, 6⟩, ⟨169, 169, 13, 13, 39⟩, ⟨170, 170, 15, 15, 5⟩,
      ⟨170, 171, 15, 13, 10⟩, ⟨171, 170, 13, 15, 6⟩, ⟨171, 171, 13, 13, 39⟩,
      ⟨172, 172, 15, 15, 5⟩, ⟨172, 173, 15, 13, 10⟩, ⟨173, 172, 13, 15, 6⟩,
      ⟨173, 173, 13, 13, 39⟩, ⟨174, 174, 15, 15, 5⟩, ⟨174, 175, 15, 13, 10⟩,
      ⟨175, 174, 13, 15, 6⟩, ⟨175, 175, 13, 13, 39⟩, ⟨176, 176, 15, 15, 5⟩,
      ⟨176, 177, 15, 13, 10⟩, ⟨177, 176, 13, 15, 6⟩, ⟨177, 177, 13, 13, 39⟩,
      ⟨178, 178, 15, 15, 5⟩, ⟨178, 179, 15, 13, 10⟩, ⟨179, 178, 13, 15, 6⟩,
      ⟨179, 179, 13, 13, 39⟩, ⟨180, 180, 15, 15, 5⟩, ⟨180, 181, 15, 13, 10⟩,
      ⟨181, 180, 13, 15, 6⟩, ⟨181, 181, 13, 13, 39⟩, ⟨182, 182, 15, 15, 5⟩,
      ⟨182, 183, 15, 13, 10⟩, ⟨183, 182, 13, 15, 6⟩, ⟨183, 183, 13, 13, 39⟩,
      ⟨184, 184, 15, 15, 5⟩, ⟨184, 185, 15, 13, 10⟩, ⟨185, 184, 13, 15, 6⟩,
      ⟨185, 185, 13, 13, 39⟩, ⟨186, 186, 15, 15, 5⟩, ⟨186, 187, 15, 13, 10⟩,
      ⟨187, 186, 13, 15, 6⟩, ⟨187, 187, 13, 13, 39⟩, ⟨188, 188, 15, 15, 5⟩,
      ⟨188, 189, 15, 13, 10⟩, ⟨189, 188, 13, 15, 6⟩, ⟨189, 189, 13, 13, 39⟩,
      ⟨190, 190, 15, 15, 5⟩, ⟨190, 191, 15, 13, 10⟩, ⟨191, 190, 13, 15, 6⟩,
      ⟨191, 191, 13, 13, 39⟩, ⟨192, 192, 15, 15, 5⟩, ⟨192, 193, 15, 13, 10⟩,
      ⟨193, 192, 13, 15, 6⟩, ⟨193, 193, 13, 13, 39⟩, ⟨194, 194, 15, 15, 5⟩,
      ⟨194, 195, 15, 13, 10⟩, ⟨195, 194, 13, 15, 6⟩, ⟨195, 195, 13, 13, 39⟩,
      ⟨196, 196, 15, 15, 5⟩, ⟨196, 197, 15, 13, 10⟩, ⟨197, 196, 13, 15, 6⟩,
      ⟨197, 197, 13, 13, 39⟩, ⟨198, 198, 15, 15, 5⟩, ⟨198, 199, 15, 13, 10⟩,
      ⟨199, 198, 13, 15, 6⟩, ⟨199, 199, 13, 13, 39⟩, ⟨200, 200, 15, 15, 5⟩,
      ⟨200, 201, 15, 13, 10⟩, ⟨201, 200, 13, 15, 6⟩, ⟨201, 201, 13, 13, 39⟩,
      ⟨202, 202, 15, 15, 5⟩, ⟨202, 203, 15, 13, 10⟩, ⟨203, 202, 13, 15, 6⟩,
      ⟨203, 203, 13, 13, 39⟩, ⟨204, 204, 20, 20, 56⟩, ⟨204, 205, 20, 15, 57⟩,
      ⟨205, 204, 15, 20, 58⟩, ⟨205, 205, 15, 15, 59⟩, ⟨205, 206, 15, 13, 60⟩,
      ⟨206, 205, 13, 15, 61⟩, ⟨206, 206, 13, 13, 62⟩, ⟨206, 207, 13, 16, 63⟩,
      ⟨207, 206, 16, 13, 64⟩, ⟨207, 207, 16, 16, 65⟩, ⟨208, 208, 20, 20, 56⟩,
      ⟨208, 209, 20, 15, 57⟩, ⟨209, 208, 15, 20, 58⟩, ⟨209, 209, 15, 15, 59⟩,
      ⟨209, 210, 15, 13, 60⟩, ⟨210, 209, 13, 15, 61⟩, ⟨210, 210, 13, 13, 62⟩,
      ⟨210, 211, 13, 16, 63⟩, ⟨211, 210, 16, 13, 64⟩, ⟨211, 211, 16, 16, 65⟩,
      ⟨212, 212, 20, 20, 56⟩, ⟨212, 213, 20, 15, 57⟩, ⟨213, 212, 15, 20, 58⟩,
      ⟨213, 213, 15, 15, 59⟩, ⟨213, 214, 15, 13, 60⟩, ⟨214, 213, 13, 15, 61⟩,
      ⟨214, 214, 13, 13, 62⟩, ⟨214, 215, 13, 16, 63⟩, ⟨215, 214, 16, 13, 64⟩,
      ⟨215, 215, 16, 16, 65⟩, ⟨216, 216, 20, 20, 56⟩, ⟨216, 217, 20, 15, 57⟩,
      ⟨217, 216, 15, 20, 58⟩, ⟨217, 217, 15, 15, 59⟩, ⟨217, 218, 15, 13, 60⟩,
      ⟨218, 217, 13, 15, 61⟩, ⟨218, 218, 13, 13, 62⟩, ⟨218, 219, 13, 16, 63⟩,
      ⟨219, 218, 16, 13, 64⟩, ⟨219, 219, 16, 16, 65⟩, ⟨220, 220, 17, 17, 0⟩,
      ⟨221, 221, 17, 17, 0⟩, ⟨222, 222, 17, 17, 0⟩, ⟨223, 223, 17, 17, 0⟩, ⟨224, 224, 17, 17, 0⟩,
      ⟨225, 225, 17, 17, 0⟩, ⟨226, 226, 17, 17, 0⟩, ⟨227, 227, 17, 17, 0⟩, ⟨228, 228, 17, 17, 0⟩,
      ⟨229, 229, 17, 17, 0⟩, ⟨230, 230, 21, 21, 42⟩, ⟨230, 231, 21, 17, 43⟩,
      ⟨231, 230, 17, 21, 44⟩, ⟨231, 231, 17, 17, 45⟩, ⟨231, 232, 17, 18, 46⟩,
      ⟨232, 231, 18, 17, 47⟩, ⟨232, 232, 18, 18, 48⟩, ⟨233, 233, 21, 21, 42⟩,
      ⟨233, 234, 21, 17, 43⟩, ⟨234, 233, 17, 21, 44⟩, ⟨234, 234, 17, 17, 45⟩,
      ⟨234, 235, 17, 18, 46⟩, ⟨235, 234, 18, 17, 47⟩, ⟨235, 235, 18, 18, 48⟩,
      ⟨236, 236, 21, 21, 42⟩, ⟨236, 237, 21, 17, 43⟩, ⟨237, 236, 17, 21, 44⟩,
      ⟨237, 237, 17, 17, 45⟩, ⟨237, 238, 17, 18, 46⟩, ⟨238, 237, 18, 17, 47⟩,
      ⟨238, 238, 18, 18, 48⟩, ⟨239, 239, 21, 21, 42⟩, ⟨239, 240, 21, 17, 43⟩,
      ⟨240, 239, 17, 21, 44⟩, ⟨240, 240, 17, 17, 45⟩, ⟨240, 241, 17, 18, 46⟩,
      ⟨241, 240, 18, 17, 47⟩, ⟨241, 241, 18, 18, 48⟩, ⟨242, 242, 21, 21, 42⟩,
      ⟨242, 243, 21, 17, 43⟩, ⟨243, 242, 17, 21, 44⟩, ⟨243, 243, 17, 17, 45⟩,
      ⟨243, 244, 17, 18, 46⟩, ⟨244, 243, 18, 17, 47⟩, ⟨244, 244, 18, 18, 48⟩,
      ⟨245, 245, 21, 21, 42⟩, ⟨245, 246, 21, 17, 43⟩, ⟨246, 245, 17, 21, 44⟩,
      ⟨246, 246, 17, 17, 45⟩, ⟨246, 247, 17, 18, 46⟩, ⟨247, 246, 18, 17, 47⟩,
      ⟨247, 247, 18, 18, 48⟩, ⟨248, 248, 22, 22, 5⟩, ⟨248, 249, 22, 19, 10⟩,
      ⟨249, 248, 19, 22, 6⟩, ⟨249, 249, 19, 19, 39⟩, ⟨250, 250, 22, 22, 5⟩,
      ⟨250, 251, 22, 19, 10⟩, ⟨251, 250, 19, 22, 6⟩, ⟨251, 251, 19, 19, 39⟩,
      ⟨252, 252, 22, 22, 5⟩, ⟨252, 253, 22, 19, 10⟩, ⟨253, 252, 19, 22, 6⟩,
      ⟨253, 253, 19, 19, 39⟩, ⟨254, 254, 22, 22, 5⟩, ⟨254, 255, 22, 19, 10⟩,
      ⟨255, 254, 19, 22, 6⟩, ⟨255, 255, 19, 19, 39⟩, ⟨256, 256, 51, 51, 0⟩]⟩,
    ⟨[.plus 0, .plus 2], [0, 3], some [
      ⟨1, 1, 39, 67, 0⟩, ⟨2, 2, 41, 40, 40⟩, ⟨3, 2, 40, 40, 41⟩, ⟨3, 3, 40, 68, 0⟩,
      ⟨4, 4, 41, 40, 40⟩, ⟨5, 4, 40, 40, 41⟩, ⟨5, 5, 40, 68, 0⟩, ⟨6, 6, 41, 40, 40⟩,
      ⟨7, 6, 40, 40, 41⟩, ⟨7, 7, 40, 68, 0⟩, ⟨8, 8, 41, 40, 40⟩, ⟨9, 8, 40, 40, 41⟩,
      ⟨9, 9, 40, 68, 0⟩, ⟨10, 10, 8, 42, 0⟩, ⟨11, 11, 8, 42, 0⟩, ⟨12, 12, 8, 42, 0⟩,
      ⟨13, 13, 8, 42, 0⟩, ⟨14, 14, 8, 42, 0⟩, ⟨15, 15, 8, 42, 0⟩, ⟨16, 16, 8, 42, 0⟩,
      ⟨17, 17, 8, 42, 0⟩, ⟨18, 18, 8, 42, 0⟩, ⟨19, 19, 8, 42, 0⟩, ⟨20, 20, 43, 8, 49⟩,
      ⟨21, 20, 8, 8, 50⟩, ⟨21, 21, 8, 42, 48⟩, ⟨22, 20, 42, 8, 51⟩, ⟨22, 21, 42, 42, 52⟩,
      ⟨22, 22, 42, 69, 0⟩, ⟨23, 23, 43, 8, 49⟩, ⟨24, 23, 8, 8, 50⟩, ⟨24, 24, 8, 42, 48⟩,
      ⟨25, 23, 42, 8, 51⟩, ⟨25, 24, 42, 42, 52⟩, ⟨25, 25, 42, 69, 0⟩, ⟨26, 26, 43, 8, 49⟩,
      ⟨27, 26, 8, 8, 50⟩, ⟨27, 27, 8, 42, 48⟩, ⟨28, 26, 42, 8, 51⟩, ⟨28, 27, 42, 42, 52⟩,
      ⟨28, 28, 42, 69, 0⟩, ⟨29, 29, 43, 8, 49⟩, ⟨30, 29, 8, 8, 50⟩, ⟨30, 30, 8, 42, 48⟩,
      ⟨31, 29, 42, 8, 51⟩, ⟨31, 30, 42, 42, 52⟩, ⟨31, 31, 42, 69, 0⟩, ⟨32, 32, 43, 8, 49⟩,
      ⟨33, 32, 8, 8, 50⟩, ⟨33, 33, 8, 42, 48⟩, ⟨34, 32, 42, 8, 51⟩, ⟨34, 33, 42, 42, 52⟩,
      ⟨34, 34, 42, 69, 0⟩, ⟨35, 35, 43, 8, 49⟩, ⟨36, 35, 8, 8, 50⟩, ⟨36, 36, 8, 42, 48⟩,
      ⟨37, 35, 42, 8, 51⟩, ⟨37, 36, 42, 42, 52⟩, ⟨37, 37, 42, 69, 0⟩, ⟨38, 38, 10, 9, 40⟩,
      ⟨39, 38, 9, 9, 41⟩, ⟨39, 39, 9, 44, 0⟩, ⟨40, 40, 10, 9, 40⟩, ⟨41, 40, 9, 9, 41⟩,
      ⟨41, 41, 9, 44, 0⟩, ⟨42, 42, 10, 9, 40⟩, ⟨43, 42, 9, 9, 41⟩, ⟨43, 43, 9, 44, 0⟩,
      ⟨44, 44, 10, 9, 40⟩, ⟨45, 44, 9, 9, 41⟩, ⟨45, 45, 9, 44, 0⟩, ⟨46, 46, 10, 9, 40⟩,
      ⟨47, 46, 9, 9, 41⟩, ⟨47, 47, 9, 44, 0⟩, ⟨48, 48, 10, 9, 40⟩, ⟨49, 48, 9, 9, 41⟩,
      ⟨49, 49, 9, 44, 0⟩, ⟨50, 50, 10, 9, 40⟩, ⟨51, 50, 9, 9, 41⟩, ⟨51, 51, 9, 44, 0⟩,
      ⟨52, 52, 10, 9, 40⟩, ⟨53, 52, 9, 9, 41⟩, ⟨53, 53, 9, 44, 0⟩, ⟨54, 54, 10, 9, 40⟩,
      ⟨55, 54, 9, 9, 41⟩, ⟨55, 55, 9, 44, 0⟩, ⟨56, 56, 10, 9, 40⟩, ⟨57, 56, 9, 9, 41⟩,
      ⟨57, 57, 9, 44, 0⟩, ⟨58, 58, 10, 9, 40⟩, ⟨59, 58, 9, 9, 41⟩, ⟨59, 59, 9, 44, 0⟩,
      ⟨60, 60, 10, 9, 40⟩, ⟨61, 60, 9, 9, 41⟩, ⟨61, 61, 9, 44, 0⟩, ⟨62, 62, 10, 9, 40⟩,
      ⟨63, 62, 9, 9, 41⟩, ⟨63, 63, 9, 44, 0⟩, ⟨64, 64, 10, 9, 40⟩, ⟨65, 64, 9, 9, 41⟩,
      ⟨65, 65, 9, 44, 0⟩, ⟨66, 66, 10, 9, 40⟩, ⟨67, 66, 9, 9, 41⟩, ⟨67, 67, 9, 44, 0⟩,
      ⟨68, 68, 10, 9, 40⟩, ⟨69, 68, 9, 9, 41⟩, ⟨69, 69, 9, 44, 0⟩, ⟨70, 70, 10, 9, 40⟩,
      ⟨71, 70, 9, 9, 41⟩, ⟨71, 71, 9, 44, 0⟩, ⟨72, 72, 10, 9, 40⟩, ⟨73, 72, 9, 9, 41⟩,
      ⟨73, 73, 9, 44, 0⟩, ⟨74, 74, 10, 9, 40⟩, ⟨75, 74, 9, 9, 41⟩, ⟨75, 75, 9, 44, 0⟩,
      ⟨76, 76, 10, 9, 40⟩, ⟨77, 76, 9, 9, 41⟩, ⟨77, 77, 9, 44, 0⟩, ⟨78, 78, 45, 10, 66⟩,
      ⟨79, 78, 10, 10, 67⟩, ⟨79, 79, 10, 9, 68⟩, ⟨80, 78, 9, 10, 69⟩, ⟨80, 79, 9, 9, 70⟩,
      ⟨80, 80, 9, 44, 71⟩, ⟨81, 79, 44, 9, 72⟩, ⟨81, 80, 44, 44, 73⟩, ⟨81, 81, 44, 70, 0⟩,
      ⟨82, 82, 45, 10, 66⟩, ⟨83, 82, 10, 10, 67⟩, ⟨83, 83, 10, 9, 68⟩, ⟨84, 82, 9, 10, 69⟩,
      ⟨84, 83, 9, 9, 70⟩, ⟨84, 84, 9, 44, 71⟩, ⟨85, 83, 44, 9, 72⟩, ⟨85, 84, 44, 44, 73⟩,
      ⟨85, 85, 44, 70, 0⟩, ⟨86, 86, 45, 10, 66⟩, ⟨87, 86, 10, 10, 67⟩, ⟨87, 87, 10, 9, 68⟩,
      ⟨88, 86, 9, 10, 69⟩, ⟨88, 87, 9, 9, 70⟩, ⟨88, 88, 9, 44, 71⟩, ⟨89, 87, 44, 9, 72⟩,
      ⟨89, 88, 44, 44, 73⟩, ⟨89, 89, 44, 70, 0⟩, ⟨90, 90, 45, 10, 66⟩, ⟨91, 90, 10, 10, 67⟩,
      ⟨91, 91, 10, 9, 68⟩, ⟨92, 90, 9, 10, 69⟩, ⟨92, 91, 9, 9, 70⟩, ⟨92, 92, 9, 44, 71⟩,
      ⟨93, 91, 44, 9, 72⟩, ⟨93, 92, 44, 44, 73⟩, ⟨93, 93, 44, 70, 0⟩, ⟨94, 94, 11, 12, 0⟩,
      ⟨95, 95, 11, 12, 0⟩, ⟨96, 96, 11, 12, 0⟩, ⟨97, 97, 11, 12, 0⟩, ⟨98, 98, 11, 12, 0⟩,
      ⟨99, 99, 11, 12, 0⟩, ⟨100, 100, 11, 12, 0⟩, ⟨101, 101, 11, 12, 0⟩, ⟨102, 102, 11, 12, 0⟩,
      ⟨103, 103, 11, 12, 0⟩, ⟨104, 104, 11, 12, 0⟩, ⟨105, 105, 11, 12, 0⟩, ⟨106, 106, 11, 12, 0⟩,
      ⟨107, 107, 11, 12, 0⟩, ⟨108, 108, 11, 12, 0⟩, ⟨109, 109, 11, 12, 0⟩, ⟨110, 110, 11, 12, 0⟩,
      ⟨111, 111, 11, 12, 0⟩, ⟨112, 112, 11, 12, 0⟩, ⟨113, 113, 11, 12, 0⟩,
      ⟨114, 114, 14, 11, 49⟩, ⟨115, 114, 11, 11, 50⟩, ⟨115, 115, 11, 12, 48⟩,
      ⟨116, 114, 12, 11, 51⟩, ⟨116, 115, 12, 12, 52⟩, ⟨116, 116, 12, 46, 0⟩,
      ⟨117, 117, 14, 11, 49⟩, ⟨118, 117, 11, 11, 50⟩, ⟨118, 118, 11, 12, 48⟩,
      ⟨119, 117, 12, 11, 51⟩, ⟨119, 118, 12, 12, 52⟩, ⟨119, 119, 12, 46, 0⟩,
      ⟨120, 120, 14, 11, 49⟩, ⟨121, 120, 11, 11, 50⟩, ⟨121, 121, 11, 12, 48⟩,
      ⟨122, 120, 12, 11, 51⟩, ⟨122, 121, 12, 12, 52⟩, ⟨122, 122, 12, 46, 0⟩,
      ⟨123, 123, 14, 11, 49⟩, ⟨124, 123, 11, 11, 50⟩, ⟨124, 124, 11, 12, 48⟩,
      ⟨125, 123, 12, 11, 51⟩, ⟨125, 124, 12, 12, 52⟩, ⟨125, 125, 12, 46, 0⟩,
      ⟨126, 126, 14, 11, 49⟩, ⟨127, 126, 11, 11, 50⟩, ⟨127, 127, 11, 12, 48⟩,
      ⟨128, 126, 12, 11, 51⟩, ⟨128, 127, 12, 12, 52⟩, ⟨128, 128, 12, 46, 0⟩,
      ⟨129, 129, 14, 11, 49⟩, ⟨130, 129, 11, 11, 50⟩, ⟨130, 130, 11, 12, 48⟩,
      ⟨131, 129, 12, 11, 51⟩, ⟨131, 130, 12, 12, 52⟩, ⟨131, 131, 12, 46, 0⟩,
      ⟨132, 132, 14, 11, 49⟩, ⟨133, 132, 11, 11, 50⟩, ⟨133, 133, 11, 12, 48⟩,
      ⟨134, 132, 12, 11, 51⟩, ⟨134, 133, 12, 12, 52⟩, ⟨134, 134, 12, 46, 0⟩,
      ⟨135, 135, 14, 11, 49⟩, ⟨136, 135, 11, 11, 50⟩, ⟨136, 136, 11, 12, 48⟩,
      ⟨137, 135, 12, 11, 51⟩, ⟨137, 136, 12, 12, 52⟩, ⟨137, 137, 12, 46, 0⟩,
      ⟨138, 138, 14, 11, 49⟩, ⟨139, 138, 11, 11, 50⟩, ⟨139, 139, 11, 12, 48⟩,
      ⟨140, 138, 12, 11, 51⟩, ⟨140, 139, 12, 12, 52⟩, ⟨140, 140, 12, 46, 0⟩,
      ⟨141, 141, 14, 11, 49⟩, ⟨142, 141, 11, 11, 50⟩, ⟨142, 142, 11, 12, 48⟩,
      ⟨143, 141, 12, 11, 51⟩, ⟨143, 142, 12, 12, 52⟩, ⟨143, 143, 12, 46, 0⟩,
      ⟨144, 144, 14, 11, 49⟩, ⟨145, 144, 11, 11, 50⟩, ⟨145, 145, 11, 12, 48⟩,
      ⟨146, 144, 12, 11, 51⟩, ⟨146, 145, 12, 12, 52⟩, ⟨146, 146, 12, 46, 0⟩,
      ⟨147, 147, 14, 11, 49⟩, ⟨148, 147, 11, 11, 50⟩, ⟨148, 148, 11, 12, 48⟩,
      ⟨149, 147, 12, 11, 51⟩, ⟨149, 148, 12, 12, 52⟩, ⟨149, 149, 12, 46, 0⟩,
      ⟨150, 150, 14, 11, 49⟩, ⟨151, 150, 11, 11, 50⟩, ⟨151, 151, 11, 12, 48⟩,
      ⟨152, 150, 12, 11, 51⟩, ⟨152, 151, 12, 12, 52⟩, ⟨152, 152, 12, 46, 0⟩,
      ⟨153, 153, 14, 11, 49⟩, ⟨154, 153, 11, 11, 50⟩, ⟨154, 154, 11, 12, 48⟩,
      ⟨155, 153, 12, 11, 51⟩, ⟨155, 154, 12, 12, 52⟩, ⟨155, 155, 12, 46, 0⟩,
      ⟨156, 156, 14, 11, 49⟩, ⟨157, 156, 11, 11, 50⟩, ⟨157, 157, 11, 12, 48⟩,
      ⟨158, 156, 12, 11, 51⟩, ⟨158, 157, 12, 12, 52⟩, ⟨158, 158, 12, 46, 0⟩,
      ⟨159, 159, 47, 14, 93⟩, ⟨160, 159, 14, 14, 94⟩, ⟨160, 160, 14, 11, 95⟩,
      ⟨161, 159, 11, 14, 96⟩, ⟨161, 160, 11, 11, 97⟩, ⟨161, 161, 11, 12, 98⟩,
      ⟨162, 160, 12, 11, 99⟩, ⟨162, 161, 12, 12, 100⟩, ⟨162, 162, 12, 46, 101⟩,
      ⟨163, 161, 46, 12, 102⟩, ⟨163, 162, 46, 46, 103⟩, ⟨163, 163, 46, 71, 0⟩,
      ⟨164, 164, 15, 13, 40⟩, ⟨165, 164, 13, 13, 41⟩, ⟨165, 165, 13, 16, 0⟩,
      ⟨166, 166, 15, 13, 40⟩, ⟨167, 166, 13, 13, 41⟩, ⟨167, 167, 13, 16, 0⟩,
      ⟨168, 168, 15, 13, 40⟩, ⟨169, 168, 13, 13, 41⟩, ⟨169, 169, 13, 16, 0⟩,
      ⟨170, 170, 15, 13, 40⟩, ⟨171, 170, 13, 13, 41⟩, ⟨171, 171, 13, 16, 0⟩,
      ⟨172, 172, 15, 13, 40⟩, ⟨173, 172, 13, 13, 41⟩, ⟨173, 173, 13, 16, 0⟩,
      ⟨174, 174, 15, 13, 40⟩, ⟨175, 174, 13, 13, 41⟩, ⟨175, 175, 13, 16, 0⟩,
      ⟨176, 176, 15, 13, 40⟩, ⟨177, 176, 13, 13, 41⟩, ⟨177, 177, 13, 16, 0⟩,
      ⟨178, 178, 15, 13, 40⟩, ⟨179, 178, 13, 13, 41⟩, ⟨179, 179, 13, 16, 0⟩,
      ⟨180, 180, 15, 13, 40⟩, ⟨181, 180, 13, 13, 41⟩, ⟨181, 181, 13, 16, 0⟩,
      ⟨182, 182, 15, 13, 40⟩, ⟨183, 182, 13, 13, 41⟩, ⟨183, 183, 13, 16, 0⟩,
      ⟨184, 184, 15, 13, 40⟩, ⟨185, 184, 13, 13, 41⟩, ⟨185, 185, 13, 16, 0⟩,
      ⟨186, 186, 15, 13, 40⟩, ⟨187, 186, 13, 13, 41⟩, ⟨187, 187, 13, 16, 0⟩,
      ⟨188, 188, 15, 13, 40⟩, ⟨189, 188, 13, 13, 41⟩, ⟨189, 189, 13, 16, 0⟩,
      ⟨190, 190, 15, 13, 40⟩, ⟨191, 190, 13, 13, 41⟩, ⟨191, 191, 13, 16, 0⟩,
      ⟨192, 192, 15, 13, 40⟩, ⟨193, 192, 13, 13, 41⟩, ⟨193, 193, 13, 16, 0⟩,
      ⟨194, 194, 15, 13, 40⟩, ⟨195, 194, 13, 13, 41⟩, ⟨195, 195, 13, 16, 0⟩,
      ⟨196, 196, 15, 13, 40⟩, ⟨197, 196, 13, 13, 41⟩, ⟨197, 197, 13, 16, 0⟩,
      ⟨198, 198, 15, 13, 40⟩, ⟨199, 198, 13, 13, 41⟩, ⟨199, 199, 13, 16, 0⟩,
      ⟨200, 200, 15, 13, 40⟩, ⟨201, 200, 13, 13, 41⟩, ⟨201, 201, 13, 16, 0⟩,
      ⟨202, 202, 15, 13, 40⟩, ⟨203, 202, 13, 13, 41⟩, ⟨203, 203, 13, 16, 0⟩,
      ⟨204, 204, 20, 15, 66⟩, ⟨205, 204, 15, 15, 67⟩, ⟨205, 205, 15, 13, 68⟩,
      ⟨206, 204, 13, 15, 69⟩, ⟨206, 205, 13, 13, 70⟩, ⟨206, 206, 13, 16, 71⟩,
      ⟨207, 205, 16, 13, 72⟩, ⟨207, 206, 16, 16, 73⟩, ⟨207, 207, 16, 48, 0⟩,
      ⟨208, 208, 20, 15, 66⟩, ⟨209, 208, 15, 15, 67⟩, ⟨209, 209, 15, 13, 68⟩,
      ⟨210, 208, 13, 15, 69⟩, ⟨210, 209, 13, 13, 70⟩, ⟨210, 210, 13, 16, 71⟩,
      ⟨211, 209, 16, 13, 72⟩, ⟨211, 210, 16, 16, 73⟩, ⟨211, 211, 16, 48, 0⟩,
      ⟨212, 212, 20, 15, 66⟩, ⟨213, 212, 15, 15, 67⟩, ⟨213, 213, 15, 13, 68⟩,
      ⟨214, 212, 13, 15, 69⟩, ⟨214, 213, 13, 13, 70⟩, ⟨214, 214, 13, 16, 71⟩,
      ⟨215, 213, 16, 13, 72⟩, ⟨215, 214, 16, 16, 73⟩, ⟨215, 215, 16, 48, 0⟩,
      ⟨216, 216, 20, 15, 66⟩, ⟨217, 216, 15, 15, 67⟩, ⟨217, 217, 15, 13, 68⟩,
      ⟨218, 216, 13, 15, 69⟩, ⟨218, 217, 13, 13, 70⟩, ⟨218, 218, 13, 16, 71⟩,
      ⟨219, 217, 16, 13, 72⟩, ⟨219, 218, 16, 16, 73⟩, ⟨219, 219, 16, 48, 0⟩,
      ⟨220, 220, 17, 18, 0⟩, ⟨221, 221, 17, 18, 0⟩, ⟨222, 222, 17, 18, 0⟩, ⟨223, 223, 17, 18, 0⟩,
      ⟨224, 224, 17, 18, 0⟩, ⟨225, 225, 17, 18, 0⟩, ⟨226, 226, 17, 18, 0⟩, ⟨227, 227, 17, 18, 0⟩,
      ⟨228, 228, 17, 18, 0⟩, ⟨229, 229, 17, 18, 0⟩, ⟨230, 230, 21, 17, 49⟩,
      ⟨231, 230, 17, 17, 50⟩, ⟨231, 231, 17, 18, 48⟩, ⟨232, 230, 18, 17, 51⟩,
      ⟨232, 231, 18, 18, 52⟩, ⟨232, 232, 18, 49, 0⟩, ⟨233, 233, 21, 17, 49⟩,
      ⟨234, 233, 17, 17, 50⟩, ⟨234, 234, 17, 18, 48⟩, ⟨235, 233, 18, 17, 51⟩,
      ⟨235, 234, 18, 18, 52⟩, ⟨235, 235, 18, 49, 0⟩, ⟨236, 236, 21, 17, 49⟩,
      ⟨237, 236, 17, 17, 50⟩, ⟨237, 237, 17, 18, 48⟩, ⟨238, 236, 18, 17, 51⟩,
      ⟨238, 237, 18, 18, 52⟩, ⟨238, 238, 18, 49, 0⟩, ⟨239, 239, 21, 17, 49⟩,
      ⟨240, 239, 17, 17, 50⟩, ⟨240, 240, 17, 18, 48⟩, ⟨241, 239, 18, 17, 51⟩,
      ⟨241, 240, 18, 18, 52⟩, ⟨241, 241, 18, 49, 0⟩, ⟨242, 242, 21, 17, 49⟩,
      ⟨243, 242, 17, 17, 50⟩, ⟨243, 243, 17, 18, 48⟩, ⟨244, 242, 18, 17, 51⟩,
      ⟨244, 243, 18, 18, 52⟩, ⟨244, 244, 18, 49, 0⟩, ⟨245, 245, 21, 17, 49⟩,
      ⟨246, 245, 17, 17, 50⟩, ⟨246, 246, 17, 18, 48⟩, ⟨247, 245, 18, 17, 51⟩,
      ⟨247, 246, 18, 18, 52⟩, ⟨247, 247, 18, 49, 0⟩, ⟨248, 248, 22, 19, 40⟩,
      ⟨249, 248, 19, 19, 41⟩, ⟨249, 249, 19, 50, 0⟩, ⟨250, 250, 22, 19, 40⟩,
      ⟨251, 250, 19, 19, 41⟩, ⟨251, 251, 19, 50, 0⟩, ⟨252, 252, 22, 19, 40⟩,
      ⟨253, 252, 19, 19, 41⟩, ⟨253, 253, 19, 50, 0⟩, ⟨254, 254, 22, 19, 40⟩,
      ⟨255, 254, 19, 19, 41⟩, ⟨255, 255, 19, 50, 0⟩, ⟨256, 256, 51, 52, 0⟩]⟩,
    ⟨[.plus 0, .plus (-2)], [0, 3], some [
      ⟨1, 1, 39, 72, 0⟩, ⟨2, 2, 41, 73, 0⟩, ⟨2, 3, 41, 41, 9⟩, ⟨3, 3, 40, 41, 5⟩,
      ⟨4, 4, 41, 73, 0⟩, ⟨4, 5, 41, 41, 9⟩, ⟨5, 5, 40, 41, 5⟩, ⟨6, 6, 41, 73, 0⟩,
      ⟨6, 7, 41, 41, 9⟩, ⟨7, 7, 40, 41, 5⟩, ⟨8, 8, 41, 73, 0⟩, ⟨8, 9, 41, 41, 9⟩,
      ⟨9, 9, 40, 41, 5⟩, ⟨10, 10, 8, 43, 0⟩, ⟨11, 11, 8, 43, 0⟩, ⟨12, 12, 8, 43, 0⟩,
      ⟨13, 13, 8, 43, 0⟩, ⟨14, 14, 8, 43, 0⟩, ⟨15, 15, 8, 43, 0⟩, ⟨16, 16, 8, 43, 0⟩,
      ⟨17, 17, 8, 43, 0⟩, ⟨18, 18, 8, 43, 0⟩, ⟨19, 19, 8, 43, 0⟩, ⟨20, 20, 43, 74, 0⟩,
      ⟨20, 21, 43, 43, 53⟩, ⟨20, 22, 43, 8, 54⟩, ⟨21, 21, 8, 43, 42⟩, ⟨21, 22, 8, 8, 43⟩,
      ⟨22, 22, 42, 8, 55⟩, ⟨23, 23, 43, 74, 0⟩, ⟨23, 24, 43, 43, 53⟩, ⟨23, 25, 43, 8, 54⟩,
      ⟨24, 24, 8, 43, 42⟩, ⟨24, 25, 8, 8, 43⟩, ⟨25, 25, 42, 8, 55⟩, ⟨26, 26, 43, 74, 0⟩,
      ⟨26, 27, 43, 43, 53⟩, ⟨26, 28, 43, 8, 54⟩, ⟨27, 27, 8, 43, 42⟩, ⟨27, 28, 8, 8, 43⟩,
      ⟨28, 28, 42, 8, 55⟩, ⟨29, 29, 43, 74, 0⟩, ⟨29, 30, 43, 43, 53⟩, ⟨29, 31, 43, 8, 54⟩,
      ⟨30, 30, 8, 43, 42⟩, ⟨30, 31, 8, 8, 43⟩, ⟨31, 31, 42, 8, 55⟩, ⟨32, 32, 43, 74, 0⟩,
      ⟨32, 33, 43, 43, 53⟩, ⟨32, 34, 43, 8, 54⟩, ⟨33, 33, 8, 43, 42⟩, ⟨33, 34, 8, 8, 43⟩,
      ⟨34, 34, 42, 8, 55⟩, ⟨35, 35, 43, 74, 0⟩, ⟨35, 36, 43, 43, 53⟩, ⟨35, 37, 43, 8, 54⟩,
      ⟨36, 36, 8, 43, 42⟩, ⟨36, 37, 8, 8, 43⟩, ⟨37, 37, 42, 8, 55⟩, ⟨38, 38, 10, 45, 0⟩,
      ⟨38, 39, 10, 10, 9⟩, ⟨39, 39, 9, 10, 5⟩, ⟨40, 40, 10, 45, 0⟩, ⟨40, 41, 10, 10, 9⟩,
      ⟨41, 41, 9, 10, 5⟩, ⟨42, 42, 10, 45, 0⟩, ⟨42, 43, 10, 10, 9⟩, ⟨43, 43, 9, 10, 5⟩,
      ⟨44, 44, 10, 45, 0⟩, ⟨44, 45, 10, 10, 9⟩, ⟨45, 45, 9, 10, 5⟩, ⟨46, 46, 10, 45, 0⟩,
      ⟨46, 47, 10, 10, 9⟩, ⟨47, 47, 9, 10, 5⟩, ⟨48, 48, 10, 45, 0⟩, ⟨48, 49, 10, 10, 9⟩,
      ⟨49, 49, 9, 10, 5⟩, ⟨50, 50, 10, 45, 0⟩, ⟨50, 51, 10, 10, 9⟩, ⟨51, 51, 9, 10, 5⟩,
      ⟨52, 52, 10, 45, 0⟩, ⟨52, 53, 10, 10, 9⟩, ⟨53, 53, 9, 10, 5⟩, ⟨54, 54, 10, 45, 0⟩,
      ⟨54, 55, 10, 10, 9⟩, ⟨55, 55, 9, 10, 5⟩, ⟨56, 56, 10, 45, 0⟩, ⟨56, 57, 10, 10, 9⟩,
      ⟨57, 57, 9, 10, 5⟩, ⟨58, 58, 10, 45, 0⟩, ⟨58, 59, 10, 10, 9⟩, ⟨59, 59, 9, 10, 5⟩,
      ⟨60, 60, 10, 45, 0⟩, ⟨60, 61, 10, 10, 9⟩, ⟨61, 61, 9, 10, 5⟩, ⟨62, 62, 10, 45, 0⟩,
      ⟨62, 63, 10, 10, 9⟩, ⟨63, 63, 9, 10, 5⟩, ⟨64, 64, 10, 45, 0⟩, ⟨64, 65, 10, 10, 9⟩,
      ⟨65, 65, 9, 10, 5⟩, ⟨66, 66, 10, 45, 0⟩, ⟨66, 67, 10, 10, 9⟩, ⟨67, 67, 9, 10, 5⟩,
      ⟨68, 68, 10, 45, 0⟩, ⟨68, 69, 10, 10, 9⟩, ⟨69, 69, 9, 10, 5⟩, ⟨70, 70, 10, 45, 0⟩,
      ⟨70, 71, 10, 10, 9⟩, ⟨71, 71, 9, 10, 5⟩, ⟨72, 72, 10, 45, 0⟩, ⟨72, 73, 10, 10, 9⟩,
      ⟨73, 73, 9, 10, 5⟩, ⟨74, 74, 10, 45, 0⟩, ⟨74, 75, 10, 10, 9⟩, ⟨75, 75, 9, 10, 5⟩,
      ⟨76, 76, 10, 45, 0⟩, ⟨76, 77, 10, 10, 9⟩, ⟨77, 77, 9, 10, 5⟩, ⟨78, 78, 45, 75, 0⟩,
      ⟨78, 79, 45, 45, 74⟩, ⟨78, 80, 45, 10, 75⟩, ⟨79, 79, 10, 45, 56⟩, ⟨79, 80, 10, 10, 76⟩,
      ⟨79, 81, 10, 9, 69⟩, ⟨80, 80, 9, 10, 77⟩, ⟨80, 81, 9, 9, 78⟩, ⟨81, 81, 44, 9, 79⟩,
      ⟨82, 82, 45, 75, 0⟩, ⟨82, 83, 45, 45, 74⟩, ⟨82, 84, 45, 10, 75⟩, ⟨83, 83, 10, 45, 56⟩,
      ⟨83, 84, 10, 10, 76⟩, ⟨83, 85, 10, 9, 69⟩, ⟨84, 84, 9, 10, 77⟩, ⟨84, 85, 9, 9, 78⟩,
      ⟨85, 85, 44, 9, 79⟩, ⟨86, 86, 45, 75, 0⟩, ⟨86, 87, 45, 45, 74⟩, ⟨86, 88, 45, 10, 75⟩,
      ⟨87, 87, 10, 45, 56⟩, ⟨87, 88, 10, 10, 76⟩, ⟨87, 89, 10, 9, 69⟩, ⟨88, 88, 9, 10, 77⟩,
      ⟨88, 89, 9, 9, 78⟩, ⟨89, 89, 44, 9, 79⟩, ⟨90, 90, 45, 75, 0⟩, ⟨90, 91, 45, 45, 74⟩,
      ⟨90, 92, 45, 10, 75⟩, ⟨91, 91, 10, 45, 56⟩, ⟨91, 92, 10, 10, 76⟩, ⟨91, 93, 10, 9, 69⟩,
      ⟨92, 92, 9, 10, 77⟩, ⟨92, 93, 9, 9, 78⟩, ⟨93, 93, 44, 9, 79⟩, ⟨94, 94, 11, 14, 0⟩,
      ⟨95, 95, 11, 14, 0⟩, ⟨96, 96, 11, 14, 0⟩, ⟨97, 97, 11, 14, 0⟩, ⟨98, 98, 11, 14, 0⟩,
      ⟨99, 99, 11, 14, 0⟩, ⟨100, 100, 11, 14, 0⟩, ⟨101, 101, 11, 14, 0⟩, ⟨102, 102, 11, 14, 0⟩,
      ⟨103, 103, 11, 14, 0⟩, ⟨104, 104, 11, 14, 0⟩, ⟨105, 105, 11, 14, 0⟩, ⟨106, 106, 11, 14, 0⟩,
      ⟨107, 107, 11, 14, 0⟩, ⟨108, 108, 11, 14, 0⟩, ⟨109, 109, 11, 14, 0⟩, ⟨110, 110, 11, 14, 0⟩,
      ⟨111, 111, 11, 14, 0⟩, ⟨112, 112, 11, 14, 0⟩, ⟨113, 113, 11, 14, 0⟩, ⟨114, 114, 14, 47, 0⟩,
      ⟨114, 115, 14, 14, 53⟩, ⟨114, 116, 14, 11, 54⟩, ⟨115, 115, 11, 14, 42⟩,
      ⟨115, 116, 11, 11, 43⟩, ⟨116, 116, 12, 11, 55⟩, ⟨117, 117, 14, 47, 0⟩,
      ⟨117, 118, 14, 14, 53⟩, ⟨117, 119, 14, 11, 54⟩, ⟨118, 118, 11, 14, 42⟩,
      ⟨118, 119, 11, 11, 43⟩, ⟨119, 119, 12, 11, 55⟩, ⟨120, 120, 14, 47, 0⟩,
      ⟨120, 121, 14, 14, 53⟩, ⟨120, 122, 14, 11, 54⟩, ⟨121, 121, 11, 14, 42⟩,
      ⟨121, 122, 11, 11, 43⟩, ⟨122, 122, 12, 11, 55⟩, ⟨123, 123, 14, 47, 0⟩,
      ⟨123, 124, 14, 14, 53⟩, ⟨123, 125, 14, 11, 54⟩, ⟨124, 124, 11, 14, 42⟩,
      ⟨124, 125, 11, 11, 43⟩, ⟨125, 125, 12, 11, 55⟩, ⟨126, 126, 14, 47, 0⟩,
      ⟨126, 127, 14, 14, 53⟩, ⟨126, 128, 14, 11, 54⟩, ⟨127, 127, 11, 14, 42⟩,
      ⟨127, 128, 11, 11, 43⟩, ⟨128, 128, 12, 11, 55⟩, ⟨129, 129, 14, 47, 0⟩,
      ⟨129, 130, 14, 14, 53⟩, ⟨129, 131, 14, 11, 54⟩, ⟨130, 130, 11, 14, 42⟩,
      ⟨130, 131, 11, 11, 43⟩, ⟨131, 131, 12, 11, 55⟩, ⟨132, 132, 14, 47, 0⟩,
      ⟨132, 133, 14, 14, 53⟩, ⟨132, 134, 14, 11, 54⟩, ⟨133, 133, 11, 14, 42⟩,
      ⟨133, 134, 11, 11, 43⟩, ⟨134, 134, 12, 11, 55⟩, ⟨135, 135, 14, 47, 0⟩,
      ⟨135, 136, 14, 14, 53⟩, ⟨135, 137, 14, 11, 54⟩, ⟨136, 136, 11, 14, 42⟩,
      ⟨136, 137, 11, 11, 43⟩, ⟨137, 137, 12, 11, 55⟩, ⟨138, 138, 14, 47, 0⟩,
      ⟨138, 139, 14, 14, 53⟩, ⟨138, 140, 14, 11, 54⟩, ⟨139, 139, 11, 14, 42⟩,
      ⟨139, 140, 11, 11, 43⟩, ⟨140, 140, 12, 11, 55⟩, ⟨141, 141, 14, 47, 0⟩,
      ⟨141, 142, 14, 14, 53⟩, ⟨141, 143, 14, 11, 54⟩, ⟨142, 142, 11, 14, 42⟩,
      ⟨142, 143, 11, 11, 43⟩, ⟨143, 143, 12, 11, 55⟩, ⟨144, 144, 14, 47, 0⟩,
      ⟨144, 145, 14, 14, 53⟩, ⟨144, 146, 14, 11, 54⟩, ⟨145, 145, 11, 14, 42⟩,
      ⟨145, 146, 11, 11, 43⟩, ⟨146, 146, 12, 11, 55⟩, ⟨147, 147, 14, 47, 0⟩,
      ⟨147, 148, 14, 14, 53⟩, ⟨147, 149, 14, 11, 54⟩, ⟨148, 148, 11, 14, 42⟩,
      ⟨148, 149, 11, 11, 43⟩, ⟨149, 149, 12, 11, 55⟩, ⟨150, 150, 14, 47, 0⟩,
      ⟨150, 151, 14, 14, 53⟩, ⟨150, 152, 14, 11, 54⟩, ⟨151, 151, 11, 14, 42⟩,
      ⟨151, 152, 11, 11, 43⟩, ⟨152, 152, 12, 11, 55⟩, ⟨153, 153, 14, 47, 0⟩,
      ⟨153, 154, 14, 14, 53⟩, ⟨153, 155, 14, 11, 54⟩, ⟨154, 154, 11, 14, 42⟩,
      ⟨154, 155, 11, 11, 43⟩, ⟨155, 155, 12, 11, 55⟩, ⟨156, 156, 14, 47, 0⟩,
      ⟨156, 157, 14, 14, 53⟩, ⟨156, 158, 14, 11, 54⟩, ⟨157, 157, 11, 14, 42⟩,
      ⟨157, 158, 11, 11, 43⟩, ⟨158, 158, 12, 11, 55⟩, ⟨159, 159, 47, 76, 0⟩,
      ⟨159, 160, 47, 47, 104⟩, ⟨159, 161, 47, 14, 105⟩, ⟨160, 160, 14, 47, 80⟩,
      ⟨160, 161, 14, 14, 106⟩, ⟨160, 162, 14, 11, 107⟩, ⟨161, 161, 11, 14, 108⟩,
      ⟨161, 162, 11, 11, 109⟩, ⟨161, 163, 11, 12, 110⟩, ⟨162, 162, 12, 11, 111⟩,
      ⟨162, 163, 12, 12, 112⟩, ⟨163, 163, 46, 12, 113⟩, ⟨164, 164, 15, 20, 0⟩,
      ⟨164, 165, 15, 15, 9⟩, ⟨165, 165, 13, 15, 5⟩, ⟨166, 166, 15, 20, 0⟩, ⟨166, 167, 15, 15, 9⟩,
      ⟨167, 167, 13, 15, 5⟩, ⟨168, 168, 15, 20, 0⟩, ⟨168, 169, 15, 15, 9⟩, ⟨169, 169, 13, 15, 5⟩,
      ⟨170, 170, 15, 20, 0⟩, ⟨170, 171, 15, 15, 9⟩, ⟨171, 171, 13, 15, 5⟩, ⟨172, 172, 15, 20, 0⟩,
      ⟨172, 173, 15, 15, 9⟩, ⟨173, 173, 13, 15, 5⟩, ⟨174, 174, 15, 20, 0⟩, ⟨174, 175, 15, 15, 9⟩,
      ⟨175, 175, 13, 15, 5⟩, ⟨176, 176, 15, 20, 0⟩, ⟨176, 177, 15, 15, 9⟩, ⟨177, 177, 13, 15, 5⟩,
      ⟨178, 178, 15, 20, 0⟩, ⟨178, 179, 15, 15, 9⟩, ⟨179, 179, 13, 15, 5⟩, ⟨180, 180, 15, 20, 0⟩,
      ⟨180, 181, 15, 15, 9⟩, ⟨181, 181, 13, 15, 5⟩, ⟨182, 182, 15, 20, 0⟩, ⟨182, 183, 15, 15, 9⟩,
      ⟨183, 183, 13, 15, 5⟩, ⟨184, 184, 15, 20, 0⟩, ⟨184, 185, 15, 15, 9⟩, ⟨185, 185, 13, 15, 5⟩,
      ⟨186, 186, 15, 20, 0⟩, ⟨186, 187, 15, 15, 9⟩, ⟨187, 187, 13, 15, 5⟩, ⟨188, 188, 15, 20, 0⟩,
      ⟨188, 189, 15, 15, 9⟩, ⟨189, 189, 13, 15, 5⟩, ⟨190, 190, 15, 20, 0⟩, ⟨190, 191, 15, 15, 9⟩,
      ⟨191, 191, 13, 15, 5⟩, ⟨192, 192, 15, 20, 0⟩, ⟨192, 193, 15, 15, 9⟩, ⟨193, 193, 13, 15, 5⟩,
      ⟨194, 194, 15, 20, 0⟩, ⟨194, 195, 15, 15, 9⟩, ⟨195, 195, 13, 15, 5⟩, ⟨196, 196, 15, 20, 0⟩,
      ⟨196, 197, 15, 15, 9⟩, ⟨197, 197, 13, 15, 5⟩, ⟨198, 198, 15, 20, 0⟩, ⟨198, 199, 15, 15, 9⟩,
      ⟨199, 199, 13, 15, 5⟩, ⟨200, 200, 15, 20, 0⟩, ⟨200, 201, 15, 15, 9⟩, ⟨201, 201, 13, 15, 5⟩,
      ⟨202, 202, 15, 20, 0⟩, ⟨202, 203, 15, 15, 9⟩, ⟨203, 203, 13, 15, 5⟩, ⟨204, 204, 20, 54, 0⟩,
      ⟨204, 205, 20, 20, 74⟩, ⟨204, 206, 20, 15, 75⟩, ⟨205, 205, 15, 20, 56⟩,
      ⟨205, 206, 15, 15, 76⟩, ⟨205, 207, 15, 13, 69⟩, ⟨206, 206, 13, 15, 77⟩,
      ⟨206, 207, 13, 13, 78⟩, ⟨207, 207, 16, 13, 79⟩, ⟨208, 208, 20, 54, 0⟩,
      ⟨208, 209, 20, 20, 74⟩, ⟨208, 210, 20, 15, 75⟩, ⟨209, 209, 15, 20, 56⟩,
      ⟨209, 210, 15, 15, 76⟩, ⟨209, 211, 15, 13, 69⟩, ⟨210, 210, 13, 15, 77⟩,
      ⟨210, 211, 13, 13, 78⟩, ⟨211, 211, 16, 13, 79⟩, ⟨212, 212, 20, 54, 0⟩,
      ⟨212, 213, 20, 20, 74⟩, ⟨212, 214, 20, 15, 75⟩, ⟨213, 213, 15, 20, 56⟩,
      ⟨213, 214, 15, 15, 76⟩, ⟨213, 215, 15, 13, 69⟩, ⟨214, 214, 13, 15, 77⟩,
      ⟨214, 215, 13, 13, 78⟩, ⟨215, 215, 16, 13, 79⟩, ⟨216, 216, 20, 54, 0⟩,
      ⟨216, 217, 20, 20, 74⟩, ⟨216, 218, 20, 15, 75⟩, ⟨217, 217, 15, 20, 56⟩,
      ⟨217, 218, 15, 15, 76⟩, ⟨217, 219, 15, 13, 69⟩, ⟨218, 218, 13, 15, 77⟩,
      ⟨218, 219, 13, 13, 78⟩, ⟨219, 219, 16, 13, 79⟩, ⟨220, 220, 17, 21, 0⟩,
      ⟨221, 221, 17, 21, 0⟩, ⟨222, 222, 17, 21, 0⟩, ⟨223, 223, 17, 21, 0⟩, ⟨224, 224, 17, 21, 0⟩,
      ⟨225, 225, 17, 21, 0⟩, ⟨226, 226, 17, 21, 0⟩, ⟨227, 227, 17, 21, 0⟩, ⟨228, 228, 17, 21, 0⟩,
      ⟨229, 229, 17, 21, 0⟩, ⟨230, 230, 21, 55, 0⟩, ⟨230, 231, 21, 21, 53⟩,
      ⟨230, 232, 21, 17, 54⟩, ⟨231, 231, 17, 21, 42⟩, ⟨231, 232, 17, 17, 43⟩,
      ⟨232, 232, 18, 17, 55⟩, ⟨233, 233, 21, 55, 0⟩, ⟨233, 234, 21, 21, 53⟩,
      ⟨233, 235, 21, 17, 54⟩, ⟨234, 234, 17, 21, 42⟩, ⟨234, 235, 17, 17, 43⟩,
      ⟨235, 235, 18, 17, 55⟩, ⟨236, 236, 21, 55, 0⟩, ⟨236, 237, 21, 21, 53⟩,
      ⟨236, 238, 21, 17, 54⟩, ⟨237, 237, 17, 21, 42⟩, ⟨237, 238, 17, 17, 43⟩,
      ⟨238, 238, 18, 17, 55⟩, ⟨239, 239, 21, 55, 0⟩, ⟨239, 240, 21, 21, 53⟩,
      ⟨239, 241, 21, 17, 54⟩, ⟨240, 240, 17, 21, 42⟩, ⟨240, 241, 17, 17, 43⟩,
      ⟨241, 241, 18, 17, 55⟩, ⟨242, 242, 21, 55, 0⟩, ⟨242, 243, 21, 21, 53⟩,
      ⟨242, 244, 21, 17, 54⟩, ⟨243, 243, 17, 21, 42⟩, ⟨243, 244, 17, 17, 43⟩,
      ⟨244, 244, 18, 17, 55⟩, ⟨245, 245, 21, 55, 0⟩, ⟨245, 246, 21, 21, 53⟩,
      ⟨245, 247, 21, 17, 54⟩, ⟨246, 246, 17, 21, 42⟩, ⟨246, 247, 17, 17, 43⟩,
      ⟨247, 247, 18, 17, 55⟩, ⟨248, 248, 22, 56, 0⟩, ⟨248, 249, 22, 22, 9⟩,
      ⟨249, 249, 19, 22, 5⟩, ⟨250, 250, 22, 56, 0⟩, ⟨250, 251, 22, 22, 9⟩, ⟨251, 251, 19, 22, 5⟩,
      ⟨252, 252, 22, 56, 0⟩, ⟨252, 253, 22, 22, 9⟩, ⟨253, 253, 19, 22, 5⟩, ⟨254, 254, 22, 56, 0⟩,
      ⟨254, 255, 22, 22, 9⟩, ⟨255, 255, 19, 22, 5⟩, ⟨256, 256, 51, 57, 0⟩]⟩]

end Verif.Oper
