import Verif.Oper.Model
/-!
# The shipped operator recalculation tables, class QST

Generated by `scripts/gen_opers.py` from `c++/symmetry/nrg-recalc-*.hpp` and the
files they include from `c++/symmetry/coefnew`.
-/

namespace Verif.Oper
open Verif.Symm

/-- The label expressions in the operator tables of `QST`. -/
def labs_QST : List LabelExpr := [
  [.plus 3, .plus 0, .plus 0],
  [.plus 2, .plus 1, .plus (-1)],
  [.plus 2, .plus (-1), .plus (-1)],
  [.plus 1, .plus 0, .plus (-2)],
  [.plus 1, .plus 0, .plus (-1)],
  [.plus 1, .plus 0, .plus 0],
  [.plus 2, .plus (-1), .plus 0],
  [.plus 2, .plus (-1), .plus 1],
  [.plus 1, .plus 2, .plus (-2)],
  [.plus 1, .plus 2, .plus (-1)],
  [.plus 1, .plus 2, .plus 0],
  [.plus 2, .plus 1, .plus 0],
  [.plus 2, .plus 1, .plus 1],
  [.plus 0, .plus 1, .plus (-1)],
  [.plus 0, .plus 1, .plus (-3)],
  [.plus 0, .plus 1, .plus (-2)],
  [.plus 0, .plus 1, .plus 0],
  [.plus 0, .plus 1, .plus 1],
  [.plus 1, .plus 0, .plus 1],
  [.plus 1, .plus 0, .plus 2],
  [.plus 1, .plus (-2), .plus (-1)],
  [.plus 0, .plus (-1), .plus (-2)],
  [.plus 0, .plus (-1), .plus (-1)],
  [.plus 0, .plus (-1), .plus 0],
  [.plus 1, .plus (-2), .plus 0],
  [.plus 1, .plus (-2), .plus 1],
  [.plus 0, .plus 3, .plus (-2)],
  [.plus 0, .plus 3, .plus (-1)],
  [.plus 0, .plus 3, .plus 0],
  [.plus 1, .plus 2, .plus 1],
  [.plus (-1), .plus 0, .plus (-2)],
  [.plus (-1), .plus 0, .plus (-1)],
  [.plus (-1), .plus 0, .plus 0],
  [.plus 0, .plus (-1), .plus 1],
  [.plus (-1), .plus 2, .plus (-2)],
  [.plus (-1), .plus 2, .plus (-1)],
  [.plus (-1), .plus 2, .plus 0],
  [.plus (-1), .plus 0, .plus (-3)],
  [.plus (-1), .plus 0, .plus 1],
  [.plus 0, .plus (-1), .plus 2],
  [.plus (-1), .plus 2, .plus (-3)],
  [.plus (-1), .plus 2, .plus 1],
  [.plus 0, .plus 1, .plus 2],
  [.plus 0, .plus (-3), .plus 0],
  [.plus (-1), .plus (-2), .plus (-1)],
  [.plus (-1), .plus 4, .plus (-1)],
  [.plus (-2), .plus 1, .plus (-1)],
  [.plus (-2), .plus 1, .plus (-3)],
  [.plus (-2), .plus 1, .plus (-2)],
  [.plus (-2), .plus 1, .plus 0],
  [.plus (-2), .plus 1, .plus 1],
  [.plus (-1), .plus 0, .plus 2],
  [.plus (-2), .plus (-1), .plus (-2)],
  [.plus (-2), .plus (-1), .plus (-1)],
  [.plus (-2), .plus (-1), .plus 0],
  [.plus (-1), .plus (-2), .plus 0],
  [.plus (-1), .plus (-2), .plus 1],
  [.plus (-2), .plus 3, .plus (-2)],
  [.plus (-2), .plus 3, .plus (-1)],
  [.plus (-2), .plus 3, .plus 0],
  [.plus (-3), .plus 0, .plus (-2)],
  [.plus (-3), .plus 0, .plus (-1)],
  [.plus (-3), .plus 0, .plus 0],
  [.plus (-2), .plus (-1), .plus 1],
  [.plus (-3), .plus 2, .plus (-2)],
  [.plus (-3), .plus 2, .plus (-1)],
  [.plus (-3), .plus 2, .plus 0],
  [.plus (-4), .plus 1, .plus (-1)],
  [.plus 1, .plus (-2), .plus (-2)],
  [.plus 0, .plus (-1), .plus (-3)],
  [.plus 0, .plus (-3), .plus (-2)],
  [.plus 0, .plus (-3), .plus (-1)],
  [.plus (-1), .plus (-2), .plus (-2)],
  [.plus (-1), .plus (-2), .plus (-3)],
  [.plus (-1), .plus (-4), .plus (-1)],
  [.plus (-2), .plus (-1), .plus (-3)],
  [.plus (-2), .plus (-3), .plus (-2)],
  [.plus (-2), .plus (-3), .plus (-1)],
  [.plus (-2), .plus (-3), .plus 0],
  [.plus (-3), .plus (-2), .plus (-2)],
  [.plus (-3), .plus (-2), .plus (-1)],
  [.plus (-3), .plus (-2), .plus 0],
  [.plus (-4), .plus (-1), .plus (-1)],
  [.plus 0, .plus 3, .plus 1],
  [.plus (-1), .plus 2, .plus 2],
  [.plus (-1), .plus 4, .plus 0],
  [.plus (-2), .plus 1, .plus 2],
  [.plus (-2), .plus 3, .plus 1],
  [.plus (-3), .plus 0, .plus 1],
  [.plus (-3), .plus 2, .plus 1],
  [.plus (-4), .plus 1, .plus 0],
  [.plus 0, .plus (-3), .plus 1],
  [.plus (-1), .plus (-2), .plus 2],
  [.plus (-1), .plus (-4), .plus 0],
  [.plus (-2), .plus (-1), .plus 2],
  [.plus (-2), .plus (-3), .plus 1],
  [.plus (-3), .plus (-2), .plus 1],
  [.plus (-4), .plus (-1), .plus 0],
  [.plus 1, .plus 2, .plus 2],
  [.plus 0, .plus 1, .plus 3],
  [.plus 0, .plus 3, .plus 2],
  [.plus (-1), .plus 0, .plus 3],
  [.plus (-1), .plus 2, .plus 3],
  [.plus (-1), .plus 4, .plus 1],
  [.plus (-2), .plus 1, .plus 3],
  [.plus (-2), .plus 3, .plus 2],
  [.plus (-3), .plus 0, .plus 2],
  [.plus (-3), .plus 2, .plus 2],
  [.plus (-4), .plus 1, .plus 1],
  [.plus 1, .plus (-2), .plus 2],
  [.plus 0, .plus (-1), .plus 3],
  [.plus 0, .plus (-3), .plus 2],
  [.plus (-1), .plus (-2), .plus 3],
  [.plus (-1), .plus (-4), .plus 1],
  [.plus (-2), .plus (-1), .plus 3],
  [.plus (-2), .plus (-3), .plus 2],
  [.plus (-3), .plus (-2), .plus 2],
  [.plus (-4), .plus (-1), .plus 1],
  [.plus 3, .plus 2, .plus 0],
  [.plus 2, .plus 3, .plus (-1)],
  [.plus 2, .plus 3, .plus 0],
  [.plus 2, .plus 3, .plus 1],
  [.plus 1, .plus 4, .plus (-1)],
  [.plus 1, .plus 4, .plus 0],
  [.plus 1, .plus 4, .plus 1],
  [.plus 0, .plus 5, .plus 0],
  [.plus 3, .plus (-2), .plus 0],
  [.plus 2, .plus (-3), .plus (-1)],
  [.plus 2, .plus (-3), .plus 0],
  [.plus 2, .plus (-3), .plus 1],
  [.plus 1, .plus (-4), .plus (-1)],
  [.plus 1, .plus (-4), .plus 0],
  [.plus 1, .plus (-4), .plus 1],
  [.plus 0, .plus (-5), .plus 0],
  [.plus 3, .plus 0, .plus 1],
  [.plus 2, .plus (-1), .plus 2],
  [.plus 2, .plus 1, .plus 2],
  [.plus 1, .plus 0, .plus 3],
  [.plus 3, .plus 0, .plus (-1)],
  [.plus 2, .plus (-1), .plus (-2)],
  [.plus 2, .plus 1, .plus (-2)],
  [.plus 1, .plus 0, .plus (-3)]]

/-- `recalc_doublet` in `nrg-recalc-QST.hpp:33-`, 3 channel(s): `qst-doubletp-1.dat`, `qst-doubletm-1.dat`, `qst-doubletp0.dat`, `qst-doubletm0.dat`, `qst-doubletp+1.dat`, `qst-doubletm+1.dat`. -/
def op_QST_3ch_doublet : OpTable where
  builtin := ⟨"QST", 3, fields_QST, tab_QST_3ch⟩
  kind := .doublet
  labs := labs_QST
  targets := [
    ⟨[.plus (-1), .plus 1, .plus (-1)], [1, 2, 1], some [
      ⟨1, 1, 0, 1, 0⟩, ⟨2, 2, 2, 3, 1⟩, ⟨2, 3, 2, 4, 2⟩, ⟨2, 4, 2, 5, 3⟩, ⟨3, 3, 6, 4, 4⟩,
      ⟨3, 4, 6, 5, 5⟩, ⟨4, 4, 7, 5, 6⟩, ⟨5, 2, 1, 3, 7⟩, ⟨5, 3, 1, 4, 8⟩, ⟨5, 4, 1, 5, 9⟩,
      ⟨5, 5, 1, 8, 10⟩, ⟨5, 6, 1, 9, 11⟩, ⟨5, 7, 1, 10, 12⟩, ⟨6, 3, 11, 4, 13⟩,
      ⟨6, 4, 11, 5, 14⟩, ⟨6, 6, 11, 9, 15⟩, ⟨6, 7, 11, 10, 16⟩, ⟨7, 4, 12, 5, 17⟩,
      ⟨7, 7, 12, 10, 18⟩, ⟨8, 8, 5, 13, 0⟩, ⟨9, 9, 3, 14, 0⟩, ⟨9, 10, 3, 15, 19⟩,
      ⟨9, 11, 3, 13, 20⟩, ⟨10, 10, 4, 15, 21⟩, ⟨10, 11, 4, 13, 22⟩, ⟨10, 12, 4, 16, 23⟩,
      ⟨11, 11, 5, 13, 24⟩, ⟨11, 12, 5, 16, 25⟩, ⟨11, 13, 5, 17, 26⟩, ⟨12, 12, 18, 16, 27⟩,
      ⟨12, 13, 18, 17, 28⟩, ⟨13, 13, 19, 17, 29⟩, ⟨14, 14, 20, 21, 30⟩, ⟨14, 15, 20, 22, 31⟩,
      ⟨14, 16, 20, 23, 32⟩, ⟨15, 15, 24, 22, 33⟩, ⟨15, 16, 24, 23, 34⟩, ⟨16, 16, 25, 23, 35⟩,
      ⟨17, 14, 4, 21, 36⟩, ⟨17, 15, 4, 22, 37⟩, ⟨17, 16, 4, 23, 38⟩, ⟨17, 17, 4, 15, 39⟩,
      ⟨17, 18, 4, 13, 40⟩, ⟨17, 19, 4, 16, 41⟩, ⟨18, 15, 5, 22, 42⟩, ⟨18, 16, 5, 23, 43⟩,
      ⟨18, 18, 5, 13, 44⟩, ⟨18, 19, 5, 16, 45⟩, ⟨19, 16, 18, 23, 46⟩, ⟨19, 19, 18, 16, 47⟩,
      ⟨20, 17, 9, 15, 48⟩, ⟨20, 18, 9, 13, 49⟩, ⟨20, 19, 9, 16, 50⟩, ⟨20, 20, 9, 26, 0⟩,
      ⟨20, 21, 9, 27, 51⟩, ⟨20, 22, 9, 28, 52⟩, ⟨21, 18, 10, 13, 53⟩, ⟨21, 19, 10, 16, 54⟩,
      ⟨21, 21, 10, 27, 55⟩, ⟨21, 22, 10, 28, 56⟩, ⟨22, 19, 29, 16, 57⟩, ⟨22, 22, 29, 28, 58⟩,
      ⟨23, 23, 22, 30, 1⟩, ⟨23, 24, 22, 31, 2⟩, ⟨23, 25, 22, 32, 3⟩, ⟨24, 24, 23, 31, 4⟩,
      ⟨24, 25, 23, 32, 5⟩, ⟨25, 25, 33, 32, 6⟩, ⟨26, 23, 13, 30, 7⟩, ⟨26, 24, 13, 31, 8⟩,
      ⟨26, 25, 13, 32, 9⟩, ⟨26, 26, 13, 34, 10⟩, ⟨26, 27, 13, 35, 11⟩, ⟨26, 28, 13, 36, 12⟩,
      ⟨27, 24, 16, 31, 13⟩, ⟨27, 25, 16, 32, 14⟩, ⟨27, 27, 16, 35, 15⟩, ⟨27, 28, 16, 36, 16⟩,
      ⟨28, 25, 17, 32, 17⟩, ⟨28, 28, 17, 36, 18⟩, ⟨29, 29, 21, 37, 1⟩, ⟨29, 30, 21, 30, 59⟩,
      ⟨29, 31, 21, 31, 60⟩, ⟨30, 30, 22, 30, 61⟩, ⟨30, 31, 22, 31, 62⟩, ⟨30, 32, 22, 32, 63⟩,
      ⟨31, 31, 23, 31, 64⟩, ⟨31, 32, 23, 32, 65⟩, ⟨31, 33, 23, 38, 66⟩, ⟨32, 32, 33, 32, 67⟩,
      ⟨32, 33, 33, 38, 68⟩, ⟨33, 33, 39, 38, 69⟩, ⟨34, 29, 15, 37, 7⟩, ⟨34, 30, 15, 30, 70⟩,
      ⟨34, 31, 15, 31, 71⟩, ⟨34, 34, 15, 40, 10⟩, ⟨34, 35, 15, 34, 72⟩, ⟨34, 36, 15, 35, 73⟩,
      ⟨35, 30, 13, 30, 74⟩, ⟨35, 31, 13, 31, 75⟩, ⟨35, 32, 13, 32, 76⟩, ⟨35, 35, 13, 34, 77⟩,
      ⟨35, 36, 13, 35, 78⟩, ⟨35, 37, 13, 36, 79⟩, ⟨36, 31, 16, 31, 80⟩, ⟨36, 32, 16, 32, 81⟩,
      ⟨36, 33, 16, 38, 82⟩, ⟨36, 36, 16, 35, 83⟩, ⟨36, 37, 16, 36, 84⟩, ⟨36, 38, 16, 41, 85⟩,
      ⟨37, 32, 17, 32, 86⟩, ⟨37, 33, 17, 38, 87⟩, ⟨37, 37, 17, 36, 88⟩, ⟨37, 38, 17, 41, 89⟩,
      ⟨38, 33, 42, 38, 90⟩, ⟨38, 38, 42, 41, 91⟩, ⟨39, 39, 43, 44, 92⟩, ⟨40, 39, 23, 44, 93⟩,
      ⟨40, 40, 23, 31, 94⟩, ⟨41, 40, 16, 31, 95⟩, ⟨41, 41, 16, 35, 96⟩, ⟨42, 41, 28, 35, 97⟩,
      ⟨42, 42, 28, 45, 10⟩, ⟨43, 43, 32, 46, 0⟩, ⟨44, 44, 30, 47, 0⟩, ⟨44, 45, 30, 48, 19⟩,
      ⟨44, 46, 30, 46, 20⟩, ⟨45, 45, 31, 48, 21⟩, ⟨45, 46, 31, 46, 22⟩, ⟨45, 47, 31, 49, 23⟩,
      ⟨46, 46, 32, 46, 24⟩, ⟨46, 47, 32, 49, 25⟩, ⟨46, 48, 32, 50, 26⟩, ⟨47, 47, 38, 49, 27⟩,
      ⟨47, 48, 38, 50, 28⟩, ⟨48, 48, 51, 50, 29⟩, ⟨49, 49, 44, 52, 30⟩, ⟨49, 50, 44, 53, 31⟩,
      ⟨49, 51, 44, 54, 32⟩, ⟨50, 50, 55, 53, 33⟩, ⟨50, 51, 55, 54, 34⟩, ⟨51, 51, 56, 54, 35⟩,
      ⟨52, 49, 31, 52, 36⟩, ⟨52, 50, 31, 53, 37⟩, ⟨52, 51, 31, 54, 38⟩, ⟨52, 52, 31, 48, 39⟩,
      ⟨52, 53, 31, 46, 40⟩, ⟨52, 54, 31, 49, 41⟩, ⟨53, 50, 32, 53, 42⟩, ⟨53, 51, 32, 54, 43⟩,
      ⟨53, 53, 32, 46, 44⟩, ⟨53, 54, 32, 49, 45⟩, ⟨54, 51, 38, 54, 46⟩, ⟨54, 54, 38, 49, 47⟩,
      ⟨55, 52, 35, 48, 48⟩, ⟨55, 53, 35, 46, 49⟩, ⟨55, 54, 35, 49, 50⟩, ⟨55, 55, 35, 57, 0⟩,
      ⟨55, 56, 35, 58, 51⟩, ⟨55, 57, 35, 59, 52⟩, ⟨56, 53, 36, 46, 53⟩, ⟨56, 54, 36, 49, 54⟩,
      ⟨56, 56, 36, 58, 55⟩, ⟨56, 57, 36, 59, 56⟩, ⟨57, 54, 41, 49, 57⟩, ⟨57, 57, 41, 59, 58⟩,
      ⟨58, 58, 53, 60, 1⟩, ⟨58, 59, 53, 61, 2⟩, ⟨58, 60, 53, 62, 3⟩, ⟨59, 59, 54, 61, 4⟩,
      ⟨59, 60, 54, 62, 5⟩, ⟨60, 60, 63, 62, 6⟩, ⟨61, 58, 46, 60, 7⟩, ⟨61, 59, 46, 61, 8⟩,
      ⟨61, 60, 46, 62, 9⟩, ⟨61, 61, 46, 64, 10⟩, ⟨61, 62, 46, 65, 11⟩, ⟨61, 63, 46, 66, 12⟩,
      ⟨62, 59, 49, 61, 13⟩, ⟨62, 60, 49, 62, 14⟩, ⟨62, 62, 49, 65, 15⟩, ⟨62, 63, 49, 66, 16⟩,
      ⟨63, 60, 50, 62, 17⟩, ⟨63, 63, 50, 66, 18⟩, ⟨64, 64, 62, 67, 0⟩]⟩,
    ⟨[.plus (-1), .plus (-1), .plus (-1)], [1, 2, 1], some [
      ⟨1, 1, 0, 2, 0⟩, ⟨2, 2, 2, 68, 10⟩, ⟨2, 3, 2, 20, 11⟩, ⟨2, 4, 2, 24, 12⟩, ⟨2, 5, 2, 3, 98⟩,
      ⟨2, 6, 2, 4, 99⟩, ⟨2, 7, 2, 5, 100⟩, ⟨3, 3, 6, 20, 15⟩, ⟨3, 4, 6, 24, 16⟩,
      ⟨3, 6, 6, 4, 101⟩, ⟨3, 7, 6, 5, 102⟩, ⟨4, 4, 7, 24, 103⟩, ⟨4, 7, 7, 5, 104⟩,
      ⟨5, 5, 1, 3, 1⟩, ⟨5, 6, 1, 4, 2⟩, ⟨5, 7, 1, 5, 105⟩, ⟨6, 6, 11, 4, 106⟩,
      ⟨6, 7, 11, 5, 107⟩, ⟨7, 7, 12, 5, 108⟩, ⟨8, 8, 5, 22, 0⟩, ⟨9, 9, 3, 69, 0⟩,
      ⟨9, 10, 3, 21, 19⟩, ⟨9, 11, 3, 22, 20⟩, ⟨10, 10, 4, 21, 21⟩, ⟨10, 11, 4, 22, 22⟩,
      ⟨10, 12, 4, 23, 23⟩, ⟨11, 11, 5, 22, 24⟩, ⟨11, 12, 5, 23, 25⟩, ⟨11, 13, 5, 33, 26⟩,
      ⟨12, 12, 18, 23, 27⟩, ⟨12, 13, 18, 33, 28⟩, ⟨13, 13, 19, 33, 29⟩, ⟨14, 14, 20, 70, 0⟩,
      ⟨14, 15, 20, 71, 51⟩, ⟨14, 16, 20, 43, 52⟩, ⟨14, 17, 20, 21, 109⟩, ⟨14, 18, 20, 22, 110⟩,
      ⟨14, 19, 20, 23, 111⟩, ⟨15, 15, 24, 71, 55⟩, ⟨15, 16, 24, 43, 112⟩, ⟨15, 18, 24, 22, 113⟩,
      ⟨15, 19, 24, 23, 114⟩, ⟨16, 16, 25, 43, 115⟩, ⟨16, 19, 25, 23, 116⟩, ⟨17, 17, 4, 21, 117⟩,
      ⟨17, 18, 4, 22, 118⟩, ⟨17, 19, 4, 23, 119⟩, ⟨17, 20, 4, 15, 120⟩, ⟨17, 21, 4, 13, 121⟩,
      ⟨17, 22, 4, 16, 122⟩, ⟨18, 18, 5, 22, 123⟩, ⟨18, 19, 5, 23, 124⟩, ⟨18, 21, 5, 13, 125⟩,
      ⟨18, 22, 5, 16, 126⟩, ⟨19, 19, 18, 23, 127⟩, ⟨19, 22, 18, 16, 128⟩, ⟨20, 20, 9, 15, 129⟩,
      ⟨20, 21, 9, 13, 130⟩, ⟨20, 22, 9, 16, 131⟩, ⟨21, 21, 10, 13, 132⟩, ⟨21, 22, 10, 16, 133⟩,
      ⟨22, 22, 29, 16, 134⟩, ⟨23, 23, 22, 72, 10⟩, ⟨23, 24, 22, 44, 11⟩, ⟨23, 25, 22, 55, 12⟩,
      ⟨23, 26, 22, 30, 98⟩, ⟨23, 27, 22, 31, 99⟩, ⟨23, 28, 22, 32, 100⟩, ⟨24, 24, 23, 44, 15⟩,
      ⟨24, 25, 23, 55, 16⟩, ⟨24, 27, 23, 31, 101⟩, ⟨24, 28, 23, 32, 102⟩, ⟨25, 25, 33, 55, 103⟩,
      ⟨25, 28, 33, 32, 104⟩, ⟨26, 26, 13, 30, 1⟩, ⟨26, 27, 13, 31, 2⟩, ⟨26, 28, 13, 32, 105⟩,
      ⟨27, 27, 16, 31, 106⟩, ⟨27, 28, 16, 32, 107⟩, ⟨28, 28, 17, 32, 108⟩, ⟨29, 29, 21, 73, 10⟩,
      ⟨29, 30, 21, 72, 72⟩, ⟨29, 31, 21, 44, 135⟩, ⟨29, 34, 21, 37, 98⟩, ⟨29, 35, 21, 30, 136⟩,
      ⟨29, 36, 21, 31, 137⟩, ⟨30, 30, 22, 72, 138⟩, ⟨30, 31, 22, 44, 139⟩, ⟨30, 32, 22, 55, 79⟩,
      ⟨30, 35, 22, 30, 140⟩, ⟨30, 36, 22, 31, 141⟩, ⟨30, 37, 22, 32, 142⟩, ⟨31, 31, 23, 44, 143⟩,
      ⟨31, 32, 23, 55, 144⟩, ⟨31, 33, 23, 56, 145⟩, ⟨31, 36, 23, 31, 146⟩, ⟨31, 37, 23, 32, 147⟩,
      ⟨31, 38, 23, 38, 148⟩, ⟨32, 32, 33, 55, 149⟩, ⟨32, 33, 33, 56, 89⟩, ⟨32, 37, 33, 32, 150⟩,
      ⟨32, 38, 33, 38, 151⟩, ⟨33, 33, 39, 56, 152⟩, ⟨33, 38, 39, 38, 153⟩, ⟨34, 34, 15, 37, 1⟩,
      ⟨34, 35, 15, 30, 154⟩, ⟨34, 36, 15, 31, 155⟩, ⟨35, 35, 13, 30, 156⟩, ⟨35, 36, 13, 31, 157⟩,
      ⟨35, 37, 13, 32, 63⟩, ⟨36, 36, 16, 31, 158⟩, ⟨36, 37, 16, 32, 159⟩, ⟨36, 38, 16, 38, 160⟩,
      ⟨37, 37, 17, 32, 161⟩, ⟨37, 38, 17, 38, 162⟩, ⟨38, 38, 42, 38, 163⟩, ⟨39, 39, 43, 74, 10⟩,
      ⟨39, 40, 43, 44, 164⟩, ⟨40, 40, 23, 44, 165⟩, ⟨40, 41, 23, 31, 166⟩, ⟨41, 41, 16, 31, 167⟩,
      ⟨41, 42, 16, 35, 168⟩, ⟨42, 42, 28, 35, 169⟩, ⟨43, 43, 32, 53, 0⟩, ⟨44, 44, 30, 75, 0⟩,
      ⟨44, 45, 30, 52, 19⟩, ⟨44, 46, 30, 53, 20⟩, ⟨45, 45, 31, 52, 21⟩, ⟨45, 46, 31, 53, 22⟩,
      ⟨45, 47, 31, 54, 23⟩, ⟨46, 46, 32, 53, 24⟩, ⟨46, 47, 32, 54, 25⟩, ⟨46, 48, 32, 63, 26⟩,
      ⟨47, 47, 38, 54, 27⟩, ⟨47, 48, 38, 63, 28⟩, ⟨48, 48, 51, 63, 29⟩, ⟨49, 49, 44, 76, 0⟩,
      ⟨49, 50, 44, 77, 51⟩, ⟨49, 51, 44, 78, 52⟩, ⟨49, 52, 44, 52, 109⟩, ⟨49, 53, 44, 53, 110⟩,
      ⟨49, 54, 44, 54, 111⟩, ⟨50, 50, 55, 77, 55⟩, ⟨50, 51, 55, 78, 112⟩, ⟨50, 53, 55, 53, 113⟩,
      ⟨50, 54, 55, 54, 114⟩, ⟨51, 51, 56, 78, 115⟩, ⟨51, 54, 56, 54, 116⟩, ⟨52, 52, 31, 52, 117⟩,
      ⟨52, 53, 31, 53, 118⟩, ⟨52, 54, 31, 54, 119⟩, ⟨52, 55, 31, 48, 120⟩, ⟨52, 56, 31, 46, 121⟩,
      ⟨52, 57, 31, 49, 122⟩, ⟨53, 53, 32, 53, 123⟩, ⟨53, 54, 32, 54, 124⟩, ⟨53, 56, 32, 46, 125⟩,
      ⟨53, 57, 32, 49, 126⟩, ⟨54, 54, 38, 54, 127⟩, ⟨54, 57, 38, 49, 128⟩, ⟨55, 55, 35, 48, 129⟩,
      ⟨55, 56, 35, 46, 130⟩, ⟨55, 57, 35, 49, 131⟩, ⟨56, 56, 36, 46, 132⟩, ⟨56, 57, 36, 49, 133⟩,
      ⟨57, 57, 41, 49, 134⟩, ⟨58, 58, 53, 79, 10⟩, ⟨58, 59, 53, 80, 11⟩, ⟨58, 60, 53, 81, 12⟩,
      ⟨58, 61, 53, 60, 98⟩, ⟨58, 62, 53, 61, 99⟩, ⟨58, 63, 53, 62, 100⟩, ⟨59, 59, 54, 80, 15⟩,
      ⟨59, 60, 54, 81, 16⟩, ⟨59, 62, 54, 61, 101⟩, ⟨59, 63, 54, 62, 102⟩, ⟨60, 60, 63, 81, 103⟩,
      ⟨60, 63, 63, 62, 104⟩, ⟨61, 61, 46, 60, 1⟩, ⟨61, 62, 46, 61, 2⟩, ⟨61, 63, 46, 62, 105⟩,
      ⟨62, 62, 49, 61, 106⟩, ⟨62, 63, 49, 62, 107⟩, ⟨63, 63, 50, 62, 108⟩, ⟨64, 64, 62, 82, 0⟩]⟩,
    ⟨[.plus (-1), .plus 1, .plus 0], [1, 2, 1], some [
      ⟨1, 1, 0, 11, 0⟩, ⟨2, 2, 2, 4, 170⟩, ⟨2, 3, 2, 5, 5⟩, ⟨3, 2, 6, 4, 171⟩, ⟨3, 3, 6, 5, 172⟩,
      ⟨3, 4, 6, 18, 173⟩, ⟨4, 3, 7, 5, 174⟩, ⟨4, 4, 7, 18, 175⟩, ⟨5, 2, 1, 4, 13⟩,
      ⟨5, 3, 1, 5, 14⟩, ⟨5, 5, 1, 9, 176⟩, ⟨5, 6, 1, 10, 16⟩, ⟨6, 2, 11, 4, 99⟩,
      ⟨6, 3, 11, 5, 177⟩, ⟨6, 4, 11, 18, 178⟩, ⟨6, 5, 11, 9, 51⟩, ⟨6, 6, 11, 10, 179⟩,
      ⟨6, 7, 11, 29, 180⟩, ⟨7, 3, 12, 5, 181⟩, ⟨7, 4, 12, 18, 182⟩, ⟨7, 6, 12, 10, 183⟩,
      ⟨7, 7, 12, 29, 184⟩, ⟨8, 8, 5, 16, 0⟩, ⟨9, 9, 3, 15, 185⟩, ⟨9, 10, 3, 13, 186⟩,
      ⟨10, 9, 4, 15, 72⟩, ⟨10, 10, 4, 13, 187⟩, ⟨10, 11, 4, 16, 25⟩, ⟨11, 10, 5, 13, 188⟩,
      ⟨11, 11, 5, 16, 189⟩, ⟨11, 12, 5, 17, 190⟩, ⟨12, 11, 18, 16, 191⟩, ⟨12, 12, 18, 17, 192⟩,
      ⟨12, 13, 18, 42, 193⟩, ⟨13, 12, 19, 17, 194⟩, ⟨13, 13, 19, 42, 195⟩, ⟨14, 14, 20, 22, 196⟩,
      ⟨14, 15, 20, 23, 197⟩, ⟨15, 14, 24, 22, 198⟩, ⟨15, 15, 24, 23, 199⟩, ⟨15, 16, 24, 33, 200⟩,
      ⟨16, 15, 25, 23, 201⟩, ⟨16, 16, 25, 33, 202⟩, ⟨17, 14, 4, 22, 203⟩, ⟨17, 15, 4, 23, 204⟩,
      ⟨17, 17, 4, 13, 205⟩, ⟨17, 18, 4, 16, 206⟩, ⟨18, 14, 5, 22, 207⟩, ⟨18, 15, 5, 23, 208⟩,
      ⟨18, 16, 5, 33, 209⟩, ⟨18, 17, 5, 13, 210⟩, ⟨18, 18, 5, 16, 211⟩, ⟨18, 19, 5, 17, 212⟩,
      ⟨19, 15, 18, 23, 213⟩, ⟨19, 16, 18, 33, 214⟩, ⟨19, 18, 18, 16, 215⟩, ⟨19, 19, 18, 17, 216⟩,
      ⟨20, 17, 9, 13, 217⟩, ⟨20, 18, 9, 16, 218⟩, ⟨20, 20, 9, 27, 55⟩, ⟨20, 21, 9, 28, 112⟩,
      ⟨21, 17, 10, 13, 121⟩, ⟨21, 18, 10, 16, 219⟩, ⟨21, 19, 10, 17, 220⟩, ⟨21, 20, 10, 27, 11⟩,
      ⟨21, 21, 10, 28, 221⟩, ⟨21, 22, 10, 83, 222⟩, ⟨22, 18, 29, 16, 223⟩, ⟨22, 19, 29, 17, 224⟩,
      ⟨22, 21, 29, 28, 225⟩, ⟨22, 22, 29, 83, 226⟩, ⟨23, 23, 22, 31, 170⟩, ⟨23, 24, 22, 32, 5⟩,
      ⟨24, 23, 23, 31, 171⟩, ⟨24, 24, 23, 32, 172⟩, ⟨24, 25, 23, 38, 173⟩, ⟨25, 24, 33, 32, 174⟩,
      ⟨25, 25, 33, 38, 175⟩, ⟨26, 23, 13, 31, 13⟩, ⟨26, 24, 13, 32, 14⟩, ⟨26, 26, 13, 35, 176⟩,
      ⟨26, 27, 13, 36, 16⟩, ⟨27, 23, 16, 31, 99⟩, ⟨27, 24, 16, 32, 177⟩, ⟨27, 25, 16, 38, 178⟩,
      ⟨27, 26, 16, 35, 51⟩, ⟨27, 27, 16, 36, 179⟩, ⟨27, 28, 16, 41, 180⟩, ⟨28, 24, 17, 32, 181⟩,
      ⟨28, 25, 17, 38, 182⟩, ⟨28, 27, 17, 36, 183⟩, ⟨28, 28, 17, 41, 184⟩, ⟨29, 29, 21, 30, 227⟩,
      ⟨29, 30, 21, 31, 228⟩, ⟨30, 29, 22, 30, 229⟩, ⟨30, 30, 22, 31, 230⟩, ⟨30, 31, 22, 32, 231⟩,
      ⟨31, 30, 23, 31, 232⟩, ⟨31, 31, 23, 32, 233⟩, ⟨31, 32, 23, 38, 234⟩, ⟨32, 31, 33, 32, 235⟩,
      ⟨32, 32, 33, 38, 236⟩, ⟨32, 33, 33, 51, 237⟩, ⟨33, 32, 39, 38, 238⟩, ⟨33, 33, 39, 51, 239⟩,
      ⟨34, 29, 15, 30, 240⟩, ⟨34, 30, 15, 31, 241⟩, ⟨34, 34, 15, 34, 242⟩, ⟨34, 35, 15, 35, 243⟩,
      ⟨35, 29, 13, 30, 136⟩, ⟨35, 30, 13, 31, 244⟩, ⟨35, 31, 13, 32, 245⟩, ⟨35, 34, 13, 34, 246⟩,
      ⟨35, 35, 13, 35, 247⟩, ⟨35, 36, 13, 36, 248⟩, ⟨36, 30, 16, 31, 249⟩, ⟨36, 31, 16, 32, 250⟩,
      ⟨36, 32, 16, 38, 251⟩, ⟨36, 35, 16, 35, 252⟩, ⟨36, 36, 16, 36, 253⟩, ⟨36, 37, 16, 41, 254⟩,
      ⟨37, 31, 17, 32, 255⟩, ⟨37, 32, 17, 38, 256⟩, ⟨37, 33, 17, 51, 257⟩, ⟨37, 36, 17, 36, 258⟩,
      ⟨37, 37, 17, 41, 259⟩, ⟨37, 38, 17, 84, 260⟩, ⟨38, 32, 42, 38, 261⟩, ⟨38, 33, 42, 51, 262⟩,
      ⟨38, 37, 42, 41, 263⟩, ⟨38, 38, 42, 84, 264⟩, ⟨39, 39, 43, 55, 92⟩, ⟨40, 39, 23, 55, 93⟩,
      ⟨40, 40, 23, 32, 94⟩, ⟨41, 40, 16, 32, 95⟩, ⟨41, 41, 16, 36, 96⟩, ⟨42, 41, 28, 36, 97⟩,
      ⟨42, 42, 28, 85, 10⟩, ⟨43, 43, 32, 49, 0⟩, ⟨44, 44, 30, 48, 185⟩, ⟨44, 45, 30, 46, 186⟩,
      ⟨45, 44, 31, 48, 72⟩, ⟨45, 45, 31, 46, 187⟩, ⟨45, 46, 31, 49, 25⟩, ⟨46, 45, 32, 46, 188⟩,
      ⟨46, 46, 32, 49, 189⟩, ⟨46, 47, 32, 50, 190⟩, ⟨47, 46, 38, 49, 191⟩, ⟨47, 47, 38, 50, 192⟩,
      ⟨47, 48, 38, 86, 193⟩, ⟨48, 47, 51, 50, 194⟩, ⟨48, 48, 51, 86, 195⟩, ⟨49, 49, 44, 53, 196⟩,
      ⟨49, 50, 44, 54, 197⟩, ⟨50, 49, 55, 53, 198⟩, ⟨50, 50, 55, 54, 199⟩, ⟨50, 51, 55, 63, 200⟩,
      ⟨51, 50, 56, 54, 201⟩, ⟨51, 51, 56, 63, 202⟩, ⟨52, 49, 31, 53, 203⟩, ⟨52, 50, 31, 54, 204⟩,
      ⟨52, 52, 31, 46, 205⟩, ⟨52, 53, 31, 49, 206⟩, ⟨53, 49, 32, 53, 207⟩, ⟨53, 50, 32, 54, 208⟩,
      ⟨53, 51, 32, 63, 209⟩, ⟨53, 52, 32, 46, 210⟩, ⟨53, 53, 32, 49, 211⟩, ⟨53, 54, 32, 50, 212⟩,
      ⟨54, 50, 38, 54, 213⟩, ⟨54, 51, 38, 63, 214⟩, ⟨54, 53, 38, 49, 215⟩, ⟨54, 54, 38, 50, 216⟩,
      ⟨55, 52, 35, 46, 217⟩, ⟨55, 53, 35, 49, 218⟩, ⟨55, 55, 35, 58, 55⟩, ⟨55, 56, 35, 59, 112⟩,
      ⟨56, 52, 36, 46, 121⟩, ⟨56, 53, 36, 49, 219⟩, ⟨56, 54, 36, 50, 220⟩, ⟨56, 55, 36, 58, 11⟩,
      ⟨56, 56, 36, 59, 221⟩, ⟨56, 57, 36, 87, 222⟩, ⟨57, 53, 41, 49, 223⟩, ⟨57, 54, 41, 50, 224⟩,
      ⟨57, 56, 41, 59, 225⟩, ⟨57, 57, 41, 87, 226⟩, ⟨58, 58, 53, 61, 170⟩, ⟨58, 59, 53, 62, 5⟩,
      ⟨59, 58, 54, 61, 171⟩, ⟨59, 59, 54, 62, 172⟩, ⟨59, 60, 54, 88, 173⟩, ⟨60, 59, 63, 62, 174⟩,
      ⟨60, 60, 63, 88, 175⟩, ⟨61, 58, 46, 61, 13⟩, ⟨61, 59, 46, 62, 14⟩, ⟨61, 61, 46, 65, 176⟩,
      ⟨61, 62, 46, 66, 16⟩, ⟨62, 58, 49, 61, 99⟩, ⟨62, 59, 49, 62, 177⟩, ⟨62, 60, 49, 88, 178⟩,
      ⟨62, 61, 49, 65, 51⟩, ⟨62, 62, 49, 66, 179⟩, ⟨62, 63, 49, 89, 180⟩, ⟨63, 59, 50, 62, 181⟩,
      ⟨63, 60, 50, 88, 182⟩, ⟨63, 62, 50, 66, 183⟩, ⟨63, 63, 50, 89, 184⟩, ⟨64, 64, 62, 90, 0⟩]⟩,
    ⟨[.plus (-1), .plus (-1), .plus 0], [1, 2, 1], some [
      ⟨1, 1, 0, 6, 0⟩, ⟨2, 2, 2, 20, 15⟩, ⟨2, 3, 2, 24, 265⟩, ⟨2, 5, 2, 4, 101⟩,
      ⟨2, 6, 2, 5, 102⟩, ⟨3, 2, 6, 20, 51⟩, ⟨3, 3, 6, 24, 179⟩, ⟨3, 4, 6, 25, 266⟩,
      ⟨3, 5, 6, 4, 8⟩, ⟨3, 6, 6, 5, 267⟩, ⟨3, 7, 6, 18, 268⟩, ⟨4, 3, 7, 24, 269⟩,
      ⟨4, 4, 7, 25, 184⟩, ⟨4, 6, 7, 5, 270⟩, ⟨4, 7, 7, 18, 271⟩, ⟨5, 5, 1, 4, 170⟩,
      ⟨5, 6, 1, 5, 5⟩, ⟨6, 5, 11, 4, 272⟩, ⟨6, 6, 11, 5, 172⟩, ⟨6, 7, 11, 18, 173⟩,
      ⟨7, 6, 12, 5, 273⟩, ⟨7, 7, 12, 18, 274⟩, ⟨8, 8, 5, 23, 0⟩, ⟨9, 9, 3, 21, 185⟩,
      ⟨9, 10, 3, 22, 186⟩, ⟨10, 9, 4, 21, 72⟩, ⟨10, 10, 4, 22, 187⟩, ⟨10, 11, 4, 23, 25⟩,
      ⟨11, 10, 5, 22, 188⟩, ⟨11, 11, 5, 23, 189⟩, ⟨11, 12, 5, 33, 190⟩, ⟨12, 11, 18, 23, 191⟩,
      ⟨12, 12, 18, 33, 192⟩, ⟨12, 13, 18, 39, 193⟩, ⟨13, 12, 19, 33, 194⟩, ⟨13, 13, 19, 39, 195⟩,
      ⟨14, 14, 20, 71, 55⟩, ⟨14, 15, 20, 43, 275⟩, ⟨14, 17, 20, 22, 276⟩, ⟨14, 18, 20, 23, 277⟩,
      ⟨15, 14, 24, 71, 11⟩, ⟨15, 15, 24, 43, 221⟩, ⟨15, 16, 24, 91, 222⟩, ⟨15, 17, 24, 22, 37⟩,
      ⟨15, 18, 24, 23, 278⟩, ⟨15, 19, 24, 33, 279⟩, ⟨16, 15, 25, 43, 280⟩, ⟨16, 16, 25, 91, 281⟩,
      ⟨16, 18, 25, 23, 282⟩, ⟨16, 19, 25, 33, 283⟩, ⟨17, 17, 4, 22, 284⟩, ⟨17, 18, 4, 23, 285⟩,
      ⟨17, 20, 4, 13, 286⟩, ⟨17, 21, 4, 16, 287⟩, ⟨18, 17, 5, 22, 288⟩, ⟨18, 18, 5, 23, 289⟩,
      ⟨18, 19, 5, 33, 290⟩, ⟨18, 20, 5, 13, 291⟩, ⟨18, 21, 5, 16, 292⟩, ⟨18, 22, 5, 17, 293⟩,
      ⟨19, 18, 18, 23, 294⟩, ⟨19, 19, 18, 33, 295⟩, ⟨19, 21, 18, 16, 296⟩, ⟨19, 22, 18, 17, 297⟩,
      ⟨20, 20, 9, 13, 298⟩, ⟨20, 21, 9, 16, 299⟩, ⟨21, 20, 10, 13, 300⟩, ⟨21, 21, 10, 16, 301⟩,
      ⟨21, 22, 10, 17, 302⟩, ⟨22, 21, 29, 16, 303⟩, ⟨22, 22, 29, 17, 304⟩, ⟨23, 23, 22, 44, 15⟩,
      ⟨23, 24, 22, 55, 265⟩, ⟨23, 26, 22, 31, 101⟩, ⟨23, 27, 22, 32, 102⟩, ⟨24, 23, 23, 44, 51⟩,
      ⟨24, 24, 23, 55, 179⟩, ⟨24, 25, 23, 56, 266⟩, ⟨24, 26, 23, 31, 8⟩, ⟨24, 27, 23, 32, 267⟩,
      ⟨24, 28, 23, 38, 268⟩, ⟨25, 24, 33, 55, 269⟩, ⟨25, 25, 33, 56, 184⟩, ⟨25, 27, 33, 32, 270⟩,
      ⟨25, 28, 33, 38, 271⟩, ⟨26, 26, 13, 31, 170⟩, ⟨26, 27, 13, 32, 5⟩, ⟨27, 26, 16, 31, 272⟩,
      ⟨27, 27, 16, 32, 172⟩, ⟨27, 28, 16, 38, 173⟩, ⟨28, 27, 17, 32, 273⟩, ⟨28, 28, 17, 38, 274⟩,
      ⟨29, 29, 21, 72, 242⟩, ⟨29, 30, 21, 44, 243⟩, ⟨29, 34, 21, 30, 305⟩, ⟨29, 35, 21, 31, 306⟩,
      ⟨30, 29, 22, 72, 19⟩, ⟨30, 30, 22, 44, 307⟩, ⟨30, 31, 22, 55, 144⟩, ⟨30, 34, 22, 30, 70⟩,
      ⟨30, 35, 22, 31, 308⟩, ⟨30, 36, 22, 32, 309⟩, ⟨31, 30, 23, 44, 310⟩, ⟨31, 31, 23, 55, 253⟩,
      ⟨31, 32, 23, 56, 254⟩, ⟨31, 35, 23, 31, 311⟩, ⟨31, 36, 23, 32, 312⟩, ⟨31, 37, 23, 38, 313⟩,
      ⟨32, 31, 33, 55, 314⟩, ⟨32, 32, 33, 56, 259⟩, ⟨32, 33, 33, 92, 315⟩, ⟨32, 36, 33, 32, 316⟩,
      ⟨32, 37, 33, 38, 317⟩, ⟨32, 38, 33, 51, 318⟩, ⟨33, 32, 39, 56, 319⟩, ⟨33, 33, 39, 92, 320⟩,
      ⟨33, 37, 39, 38, 321⟩, ⟨33, 38, 39, 51, 322⟩, ⟨34, 34, 15, 30, 227⟩, ⟨34, 35, 15, 31, 323⟩,
      ⟨35, 34, 13, 30, 229⟩, ⟨35, 35, 13, 31, 324⟩, ⟨35, 36, 13, 32, 325⟩, ⟨36, 35, 16, 31, 326⟩,
      ⟨36, 36, 16, 32, 327⟩, ⟨36, 37, 16, 38, 328⟩, ⟨37, 36, 17, 32, 329⟩, ⟨37, 37, 17, 38, 330⟩,
      ⟨37, 38, 17, 51, 331⟩, ⟨38, 37, 42, 38, 332⟩, ⟨38, 38, 42, 51, 333⟩, ⟨39, 39, 43, 93, 10⟩,
      ⟨39, 40, 43, 55, 164⟩, ⟨40, 40, 23, 55, 165⟩, ⟨40, 41, 23, 32, 166⟩, ⟨41, 41, 16, 32, 167⟩,
      ⟨41, 42, 16, 36, 168⟩, ⟨42, 42, 28, 36, 169⟩, ⟨43, 43, 32, 54, 0⟩, ⟨44, 44, 30, 52, 185⟩,
      ⟨44, 45, 30, 53, 186⟩, ⟨45, 44, 31, 52, 72⟩, ⟨45, 45, 31, 53, 187⟩, ⟨45, 46, 31, 54, 25⟩,
      ⟨46, 45, 32, 53, 188⟩, ⟨46, 46, 32, 54, 189⟩, ⟨46, 47, 32, 63, 190⟩, ⟨47, 46, 38, 54, 191⟩,
      ⟨47, 47, 38, 63, 192⟩, ⟨47, 48, 38, 94, 193⟩, ⟨48, 47, 51, 63, 194⟩, ⟨48, 48, 51, 94, 195⟩,
      ⟨49, 49, 44, 77, 55⟩, ⟨49, 50, 44, 78, 275⟩, ⟨49, 52, 44, 53, 276⟩, ⟨49, 53, 44, 54, 277⟩,
      ⟨50, 49, 55, 77, 11⟩, ⟨50, 50, 55, 78, 221⟩, ⟨50, 51, 55, 95, 222⟩, ⟨50, 52, 55, 53, 37⟩,
      ⟨50, 53, 55, 54, 278⟩, ⟨50, 54, 55, 63, 279⟩, ⟨51, 50, 56, 78, 280⟩, ⟨51, 51, 56, 95, 281⟩,
      ⟨51, 53, 56, 54, 282⟩, ⟨51, 54, 56, 63, 283⟩, ⟨52, 52, 31, 53, 284⟩, ⟨52, 53, 31, 54, 285⟩,
      ⟨52, 55, 31, 46, 286⟩, ⟨52, 56, 31, 49, 287⟩, ⟨53, 52, 32, 53, 334⟩, ⟨53, 53, 32, 54, 289⟩,
      ⟨53, 54, 32, 63, 290⟩, ⟨53, 55, 32, 46, 291⟩, ⟨53, 56, 32, 49, 292⟩, ⟨53, 57, 32, 50, 293⟩,
      ⟨54, 53, 38, 54, 294⟩, ⟨54, 54, 38, 63, 295⟩, ⟨54, 56, 38, 49, 296⟩, ⟨54, 57, 38, 50, 297⟩,
      ⟨55, 55, 35, 46, 298⟩, ⟨55, 56, 35, 49, 299⟩, ⟨56, 55, 36, 46, 300⟩, ⟨56, 56, 36, 49, 301⟩,
      ⟨56, 57, 36, 50, 302⟩, ⟨57, 56, 41, 49, 303⟩, ⟨57, 57, 41, 50, 304⟩, ⟨58, 58, 53, 80, 15⟩,
      ⟨58, 59, 53, 81, 265⟩, ⟨58, 61, 53, 61, 101⟩, ⟨58, 62, 53, 62, 102⟩, ⟨59, 58, 54, 80, 51⟩,
      ⟨59, 59, 54, 81, 179⟩, ⟨59, 60, 54, 96, 266⟩, ⟨59, 61, 54, 61, 8⟩, ⟨59, 62, 54, 62, 267⟩,
      ⟨59, 63, 54, 88, 268⟩, ⟨60, 59, 63, 81, 269⟩, ⟨60, 60, 63, 96, 184⟩, ⟨60, 62, 63, 62, 270⟩,
      ⟨60, 63, 63, 88, 271⟩, ⟨61, 61, 46, 61, 170⟩, ⟨61, 62, 46, 62, 5⟩, ⟨62, 61, 49, 61, 272⟩,
      ⟨62, 62, 49, 62, 172⟩, ⟨62, 63, 49, 88, 173⟩, ⟨63, 62, 50, 62, 273⟩, ⟨63, 63, 50, 88, 274⟩,
      ⟨64, 64, 62, 97, 0⟩]⟩,
    ⟨[.plus (-1), .plus 1, .plus 1], [1, 2, 1], some [
      ⟨1, 1, 0, 12, 0⟩, ⟨2, 2, 2, 5, 335⟩, ⟨3, 2, 6, 5, 336⟩, ⟨3, 3, 6, 18, 337⟩,
      ⟨4, 2, 7, 5, 338⟩, ⟨4, 3, 7, 18, 339⟩, ⟨4, 4, 7, 19, 1⟩, ⟨5, 2, 1, 5, 17⟩,
      ⟨5, 5, 1, 10, 18⟩, ⟨6, 2, 11, 5, 340⟩, ⟨6, 3, 11, 18, 341⟩, ⟨6, 5, 11, 10, 342⟩,
      ⟨6, 6, 11, 29, 343⟩, ⟨7, 2, 12, 5, 344⟩, ⟨7, 3, 12, 18, 268⟩, ⟨7, 4, 12, 19, 7⟩,
      ⟨7, 5, 12, 10, 345⟩, ⟨7, 6, 12, 29, 222⟩, ⟨7, 7, 12, 98, 10⟩, ⟨8, 8, 5, 17, 0⟩,
      ⟨9, 9, 3, 13, 346⟩, ⟨10, 9, 4, 13, 347⟩, ⟨10, 10, 4, 16, 348⟩, ⟨11, 9, 5, 13, 349⟩,
      ⟨11, 10, 5, 16, 350⟩, ⟨11, 11, 5, 17, 351⟩, ⟨12, 10, 18, 16, 352⟩, ⟨12, 11, 18, 17, 353⟩,
      ⟨12, 12, 18, 42, 354⟩, ⟨13, 11, 19, 17, 355⟩, ⟨13, 12, 19, 42, 356⟩, ⟨13, 13, 19, 99, 0⟩,
      ⟨14, 14, 20, 23, 357⟩, ⟨15, 14, 24, 23, 358⟩, ⟨15, 15, 24, 33, 202⟩, ⟨16, 14, 25, 23, 359⟩,
      ⟨16, 15, 25, 33, 360⟩, ⟨16, 16, 25, 39, 361⟩, ⟨17, 14, 4, 23, 46⟩, ⟨17, 17, 4, 16, 362⟩,
      ⟨18, 14, 5, 23, 363⟩, ⟨18, 15, 5, 33, 364⟩, ⟨18, 17, 5, 16, 365⟩, ⟨18, 18, 5, 17, 366⟩,
      ⟨19, 14, 18, 23, 367⟩, ⟨19, 15, 18, 33, 279⟩, ⟨19, 16, 18, 39, 36⟩, ⟨19, 17, 18, 16, 368⟩,
      ⟨19, 18, 18, 17, 369⟩, ⟨19, 19, 18, 42, 370⟩, ⟨20, 17, 9, 16, 371⟩, ⟨20, 20, 9, 28, 372⟩,
      ⟨21, 17, 10, 16, 373⟩, ⟨21, 18, 10, 17, 374⟩, ⟨21, 20, 10, 28, 375⟩, ⟨21, 21, 10, 83, 281⟩,
      ⟨22, 17, 29, 16, 376⟩, ⟨22, 18, 29, 17, 293⟩, ⟨22, 19, 29, 42, 48⟩, ⟨22, 20, 29, 28, 377⟩,
      ⟨22, 21, 29, 83, 266⟩, ⟨22, 22, 29, 100, 0⟩, ⟨23, 23, 22, 32, 335⟩, ⟨24, 23, 23, 32, 336⟩,
      ⟨24, 24, 23, 38, 337⟩, ⟨25, 23, 33, 32, 338⟩, ⟨25, 24, 33, 38, 339⟩, ⟨25, 25, 33, 51, 1⟩,
      ⟨26, 23, 13, 32, 17⟩, ⟨26, 26, 13, 36, 18⟩, ⟨27, 23, 16, 32, 340⟩, ⟨27, 24, 16, 38, 341⟩,
      ⟨27, 26, 16, 36, 342⟩, ⟨27, 27, 16, 41, 343⟩, ⟨28, 23, 17, 32, 344⟩, ⟨28, 24, 17, 38, 268⟩,
      ⟨28, 25, 17, 51, 7⟩, ⟨28, 26, 17, 36, 345⟩, ⟨28, 27, 17, 41, 222⟩, ⟨28, 28, 17, 84, 10⟩,
      ⟨29, 29, 21, 31, 378⟩, ⟨30, 29, 22, 31, 379⟩, ⟨30, 30, 22, 32, 380⟩, ⟨31, 29, 23, 31, 381⟩,
      ⟨31, 30, 23, 32, 382⟩, ⟨31, 31, 23, 38, 383⟩, ⟨32, 30, 33, 32, 384⟩, ⟨32, 31, 33, 38, 385⟩,
      ⟨32, 32, 33, 51, 386⟩, ⟨33, 31, 39, 38, 387⟩, ⟨33, 32, 39, 51, 388⟩,
      ⟨33, 33, 39, 101, 389⟩, ⟨34, 29, 15, 31, 390⟩, ⟨34, 34, 15, 35, 391⟩,
      ⟨35, 29, 13, 31, 392⟩, ⟨35, 30, 13, 32, 393⟩, ⟨35, 34, 13, 35, 394⟩, ⟨35, 35, 13, 36, 395⟩,
      ⟨36, 29, 16, 31, 396⟩, ⟨36, 30, 16, 32, 397⟩, ⟨36, 31, 16, 38, 398⟩, ⟨36, 34, 16, 35, 399⟩,
      ⟨36, 35, 16, 36, 400⟩, ⟨36, 36, 16, 41, 401⟩, ⟨37, 30, 17, 32, 402⟩, ⟨37, 31, 17, 38, 403⟩,
      ⟨37, 32, 17, 51, 404⟩, ⟨37, 35, 17, 36, 405⟩, ⟨37, 36, 17, 41, 406⟩, ⟨37, 37, 17, 84, 407⟩,
      ⟨38, 31, 42, 38, 408⟩, ⟨38, 32, 42, 51, 409⟩, ⟨38, 33, 42, 101, 410⟩,
      ⟨38, 36, 42, 41, 411⟩, ⟨38, 37, 42, 84, 412⟩, ⟨38, 38, 42, 102, 10⟩, ⟨39, 39, 43, 56, 92⟩,
      ⟨40, 39, 23, 56, 93⟩, ⟨40, 40, 23, 38, 94⟩, ⟨41, 40, 16, 38, 95⟩, ⟨41, 41, 16, 41, 413⟩,
      ⟨42, 41, 28, 41, 414⟩, ⟨42, 42, 28, 103, 10⟩, ⟨43, 43, 32, 50, 0⟩, ⟨44, 44, 30, 46, 346⟩,
      ⟨45, 44, 31, 46, 347⟩, ⟨45, 45, 31, 49, 348⟩, ⟨46, 44, 32, 46, 349⟩, ⟨46, 45, 32, 49, 350⟩,
      ⟨46, 46, 32, 50, 351⟩, ⟨47, 45, 38, 49, 352⟩, ⟨47, 46, 38, 50, 353⟩, ⟨47, 47, 38, 86, 354⟩,
      ⟨48, 46, 51, 50, 355⟩, ⟨48, 47, 51, 86, 356⟩, ⟨48, 48, 51, 104, 0⟩, ⟨49, 49, 44, 54, 357⟩,
      ⟨50, 49, 55, 54, 358⟩, ⟨50, 50, 55, 63, 202⟩, ⟨51, 49, 56, 54, 359⟩, ⟨51, 50, 56, 63, 360⟩,
      ⟨51, 51, 56, 94, 361⟩, ⟨52, 49, 31, 54, 46⟩, ⟨52, 52, 31, 49, 362⟩, ⟨53, 49, 32, 54, 363⟩,
      ⟨53, 50, 32, 63, 364⟩, ⟨53, 52, 32, 49, 365⟩, ⟨53, 53, 32, 50, 366⟩, ⟨54, 49, 38, 54, 367⟩,
      ⟨54, 50, 38, 63, 279⟩, ⟨54, 51, 38, 94, 36⟩, ⟨54, 52, 38, 49, 368⟩, ⟨54, 53, 38, 50, 369⟩,
      ⟨54, 54, 38, 86, 370⟩, ⟨55, 52, 35, 49, 371⟩, ⟨55, 55, 35, 59, 372⟩, ⟨56, 52, 36, 49, 373⟩,
      ⟨56, 53, 36, 50, 374⟩, ⟨56, 55, 36, 59, 375⟩, ⟨56, 56, 36, 87, 281⟩, ⟨57, 52, 41, 49, 376⟩,
      ⟨57, 53, 41, 50, 293⟩, ⟨57, 54, 41, 86, 48⟩, ⟨57, 55, 41, 59, 377⟩, ⟨57, 56, 41, 87, 266⟩,
      ⟨57, 57, 41, 105, 0⟩, ⟨58, 58, 53, 62, 335⟩, ⟨59, 58, 54, 62, 336⟩, ⟨59, 59, 54, 88, 337⟩,
      ⟨60, 58, 63, 62, 338⟩, ⟨60, 59, 63, 88, 339⟩, ⟨60, 60, 63, 106, 1⟩, ⟨61, 58, 46, 62, 17⟩,
      ⟨61, 61, 46, 66, 18⟩, ⟨62, 58, 49, 62, 340⟩, ⟨62, 59, 49, 88, 341⟩, ⟨62, 61, 49, 66, 342⟩,
      ⟨62, 62, 49, 89, 343⟩, ⟨63, 58, 50, 62, 344⟩, ⟨63, 59, 50, 88, 268⟩, ⟨63, 60, 50, 106, 7⟩,
      ⟨63, 61, 50, 66, 345⟩, ⟨63, 62, 50, 89, 222⟩, ⟨63, 63, 50, 107, 10⟩, ⟨64, 64, 62, 108, 0⟩]⟩,
    ⟨[.plus (-1), .plus (-1), .plus 1], [1, 2, 1], some [
      ⟨1, 1, 0, 7, 0⟩, ⟨2, 2, 2, 24, 18⟩, ⟨2, 5, 2, 5, 415⟩, ⟨3, 2, 6, 24, 269⟩,
      ⟨3, 3, 6, 25, 184⟩, ⟨3, 5, 6, 5, 416⟩, ⟨3, 6, 6, 18, 271⟩, ⟨4, 2, 7, 24, 417⟩,
      ⟨4, 3, 7, 25, 222⟩, ⟨4, 4, 7, 109, 10⟩, ⟨4, 5, 7, 5, 418⟩, ⟨4, 6, 7, 18, 178⟩,
      ⟨4, 7, 7, 19, 98⟩, ⟨5, 5, 1, 5, 335⟩, ⟨6, 5, 11, 5, 419⟩, ⟨6, 6, 11, 18, 274⟩,
      ⟨7, 5, 12, 5, 420⟩, ⟨7, 6, 12, 18, 339⟩, ⟨7, 7, 12, 19, 1⟩, ⟨8, 8, 5, 33, 0⟩,
      ⟨9, 9, 3, 22, 346⟩, ⟨10, 9, 4, 22, 347⟩, ⟨10, 10, 4, 23, 348⟩, ⟨11, 9, 5, 22, 349⟩,
      ⟨11, 10, 5, 23, 350⟩, ⟨11, 11, 5, 33, 421⟩, ⟨12, 10, 18, 23, 352⟩, ⟨12, 11, 18, 33, 422⟩,
      ⟨12, 12, 18, 39, 423⟩, ⟨13, 11, 19, 33, 355⟩, ⟨13, 12, 19, 39, 356⟩, ⟨13, 13, 19, 110, 0⟩,
      ⟨14, 14, 20, 43, 372⟩, ⟨14, 17, 20, 23, 424⟩, ⟨15, 14, 24, 43, 280⟩, ⟨15, 15, 24, 91, 281⟩,
      ⟨15, 17, 24, 23, 425⟩, ⟨15, 18, 24, 33, 426⟩, ⟨16, 14, 25, 43, 377⟩, ⟨16, 15, 25, 91, 266⟩,
      ⟨16, 16, 25, 111, 0⟩, ⟨16, 17, 25, 23, 427⟩, ⟨16, 18, 25, 33, 209⟩, ⟨16, 19, 25, 39, 109⟩,
      ⟨17, 17, 4, 23, 428⟩, ⟨17, 20, 4, 16, 429⟩, ⟨18, 17, 5, 23, 430⟩, ⟨18, 18, 5, 33, 431⟩,
      ⟨18, 20, 5, 16, 432⟩, ⟨18, 21, 5, 17, 433⟩, ⟨19, 17, 18, 23, 434⟩, ⟨19, 18, 18, 33, 435⟩,
      ⟨19, 19, 18, 39, 436⟩, ⟨19, 20, 18, 16, 437⟩, ⟨19, 21, 18, 17, 220⟩, ⟨19, 22, 18, 42, 120⟩,
      ⟨20, 20, 9, 16, 438⟩, ⟨21, 20, 10, 16, 439⟩, ⟨21, 21, 10, 17, 440⟩, ⟨22, 20, 29, 16, 441⟩,
      ⟨22, 21, 29, 17, 442⟩, ⟨22, 22, 29, 42, 443⟩, ⟨23, 23, 22, 55, 18⟩, ⟨23, 26, 22, 32, 415⟩,
      ⟨24, 23, 23, 55, 269⟩, ⟨24, 24, 23, 56, 184⟩, ⟨24, 26, 23, 32, 416⟩, ⟨24, 27, 23, 38, 271⟩,
      ⟨25, 23, 33, 55, 417⟩, ⟨25, 24, 33, 56, 222⟩, ⟨25, 25, 33, 92, 10⟩, ⟨25, 26, 33, 32, 418⟩,
      ⟨25, 27, 33, 38, 178⟩, ⟨25, 28, 33, 51, 98⟩, ⟨26, 26, 13, 32, 335⟩, ⟨27, 26, 16, 32, 419⟩,
      ⟨27, 27, 16, 38, 274⟩, ⟨28, 26, 17, 32, 420⟩, ⟨28, 27, 17, 38, 339⟩, ⟨28, 28, 17, 51, 1⟩,
      ⟨29, 29, 21, 44, 391⟩, ⟨29, 34, 21, 31, 444⟩, ⟨30, 29, 22, 44, 445⟩, ⟨30, 30, 22, 55, 446⟩,
      ⟨30, 34, 22, 31, 447⟩, ⟨30, 35, 22, 32, 448⟩, ⟨31, 29, 23, 44, 449⟩, ⟨31, 30, 23, 55, 450⟩,
      ⟨31, 31, 23, 56, 451⟩, ⟨31, 34, 23, 31, 452⟩, ⟨31, 35, 23, 32, 316⟩, ⟨31, 36, 23, 38, 453⟩,
      ⟨32, 30, 33, 55, 405⟩, ⟨32, 31, 33, 56, 454⟩, ⟨32, 32, 33, 92, 407⟩, ⟨32, 35, 33, 32, 455⟩,
      ⟨32, 36, 33, 38, 456⟩, ⟨32, 37, 33, 51, 457⟩, ⟨33, 31, 39, 56, 411⟩, ⟨33, 32, 39, 92, 458⟩,
      ⟨33, 33, 39, 112, 10⟩, ⟨33, 36, 39, 38, 459⟩, ⟨33, 37, 39, 51, 257⟩, ⟨33, 38, 39, 101, 98⟩,
      ⟨34, 34, 15, 31, 378⟩, ⟨35, 34, 13, 31, 460⟩, ⟨35, 35, 13, 32, 461⟩, ⟨36, 34, 16, 31, 462⟩,
      ⟨36, 35, 16, 32, 463⟩, ⟨36, 36, 16, 38, 464⟩, ⟨37, 35, 17, 32, 384⟩, ⟨37, 36, 17, 38, 465⟩,
      ⟨37, 37, 17, 51, 386⟩, ⟨38, 36, 42, 38, 466⟩, ⟨38, 37, 42, 51, 467⟩, ⟨38, 38, 42, 101, 1⟩,
      ⟨39, 39, 43, 113, 10⟩, ⟨39, 40, 43, 56, 164⟩, ⟨40, 40, 23, 56, 165⟩, ⟨40, 41, 23, 38, 166⟩,
      ⟨41, 41, 16, 38, 167⟩, ⟨41, 42, 16, 41, 168⟩, ⟨42, 42, 28, 41, 169⟩, ⟨43, 43, 32, 63, 0⟩,
      ⟨44, 44, 30, 53, 346⟩, ⟨45, 44, 31, 53, 347⟩, ⟨45, 45, 31, 54, 348⟩, ⟨46, 44, 32, 53, 349⟩,
      ⟨46, 45, 32, 54, 350⟩, ⟨46, 46, 32, 63, 421⟩, ⟨47, 45, 38, 54, 352⟩, ⟨47, 46, 38, 63, 422⟩,
      ⟨47, 47, 38, 94, 423⟩, ⟨48, 46, 51, 63, 355⟩, ⟨48, 47, 51, 94, 356⟩, ⟨48, 48, 51, 114, 0⟩,
      ⟨49, 49, 44, 78, 372⟩, ⟨49, 52, 44, 54, 424⟩, ⟨50, 49, 55, 78, 280⟩, ⟨50, 50, 55, 95, 281⟩,
      ⟨50, 52, 55, 54, 425⟩, ⟨50, 53, 55, 63, 426⟩, ⟨51, 49, 56, 78, 377⟩, ⟨51, 50, 56, 95, 266⟩,
      ⟨51, 51, 56, 115, 0⟩, ⟨51, 52, 56, 54, 427⟩, ⟨51, 53, 56, 63, 209⟩, ⟨51, 54, 56, 94, 109⟩,
      ⟨52, 52, 31, 54, 428⟩, ⟨52, 55, 31, 49, 429⟩, ⟨53, 52, 32, 54, 430⟩, ⟨53, 53, 32, 63, 431⟩,
      ⟨53, 55, 32, 49, 432⟩, ⟨53, 56, 32, 50, 433⟩, ⟨54, 52, 38, 54, 434⟩, ⟨54, 53, 38, 63, 435⟩,
      ⟨54, 54, 38, 94, 436⟩, ⟨54, 55, 38, 49, 437⟩, ⟨54, 56, 38, 50, 220⟩, ⟨54, 57, 38, 86, 120⟩,
      ⟨55, 55, 35, 49, 438⟩, ⟨56, 55, 36, 49, 439⟩, ⟨56, 56, 36, 50, 440⟩, ⟨57, 55, 41, 49, 441⟩,
      ⟨57, 56, 41, 50, 442⟩, ⟨57, 57, 41, 86, 443⟩, ⟨58, 58, 53, 81, 18⟩, ⟨58, 61, 53, 62, 415⟩,
      ⟨59, 58, 54, 81, 269⟩, ⟨59, 59, 54, 96, 184⟩, ⟨59, 61, 54, 62, 416⟩, ⟨59, 62, 54, 88, 271⟩,
      ⟨60, 58, 63, 81, 417⟩, ⟨60, 59, 63, 96, 222⟩, ⟨60, 60, 63, 116, 10⟩, ⟨60, 61, 63, 62, 418⟩,
      ⟨60, 62, 63, 88, 178⟩, ⟨60, 63, 63, 106, 98⟩, ⟨61, 61, 46, 62, 335⟩, ⟨62, 61, 49, 62, 419⟩,
      ⟨62, 62, 49, 88, 274⟩, ⟨63, 61, 50, 62, 420⟩, ⟨63, 62, 50, 88, 339⟩, ⟨63, 63, 50, 106, 1⟩,
      ⟨64, 64, 62, 117, 0⟩]⟩]

/-- `recalc_triplet` in `nrg-recalc-QST.hpp:226-`, 3 channel(s): `qst-triplets.dat`, `qst-tripletp.dat`, `qst-tripletm.dat`. -/
def op_QST_3ch_triplet : OpTable where
  builtin := ⟨"QST", 3, fields_QST, tab_QST_3ch⟩
  kind := .triplet
  labs := labs_QST
  targets := [
    ⟨[.plus 0, .plus 0, .plus 0], [0, 3, 0], some [
      ⟨1, 1, 0, 0, 0⟩, ⟨2, 2, 2, 2, 361⟩, ⟨2, 5, 2, 1, 120⟩, ⟨3, 3, 6, 6, 361⟩,
      ⟨3, 6, 6, 11, 120⟩, ⟨4, 4, 7, 7, 468⟩, ⟨4, 7, 7, 12, 120⟩, ⟨5, 2, 1, 2, 36⟩,
      ⟨5, 5, 1, 1, 39⟩, ⟨6, 3, 11, 6, 469⟩, ⟨6, 6, 11, 11, 470⟩, ⟨7, 4, 12, 7, 36⟩,
      ⟨7, 7, 12, 12, 443⟩, ⟨8, 8, 5, 5, 0⟩, ⟨9, 9, 3, 3, 0⟩, ⟨10, 10, 4, 4, 0⟩,
      ⟨11, 11, 5, 5, 0⟩, ⟨12, 12, 18, 18, 0⟩, ⟨13, 13, 19, 19, 0⟩, ⟨14, 14, 20, 20, 471⟩,
      ⟨14, 17, 20, 4, 472⟩, ⟨15, 15, 24, 24, 471⟩, ⟨15, 18, 24, 5, 473⟩, ⟨16, 16, 25, 25, 474⟩,
      ⟨16, 19, 25, 18, 475⟩, ⟨17, 14, 4, 20, 476⟩, ⟨17, 17, 4, 4, 477⟩, ⟨17, 20, 4, 9, 478⟩,
      ⟨18, 15, 5, 24, 476⟩, ⟨18, 18, 5, 5, 477⟩, ⟨18, 21, 5, 10, 478⟩, ⟨19, 16, 18, 25, 476⟩,
      ⟨19, 19, 18, 18, 477⟩, ⟨19, 22, 18, 29, 478⟩, ⟨20, 17, 9, 4, 479⟩, ⟨20, 20, 9, 9, 480⟩,
      ⟨21, 18, 10, 5, 479⟩, ⟨21, 21, 10, 10, 480⟩, ⟨22, 19, 29, 18, 479⟩, ⟨22, 22, 29, 29, 480⟩,
      ⟨23, 23, 22, 22, 361⟩, ⟨23, 26, 22, 13, 120⟩, ⟨24, 24, 23, 23, 361⟩, ⟨24, 27, 23, 16, 120⟩,
      ⟨25, 25, 33, 33, 468⟩, ⟨25, 28, 33, 17, 120⟩, ⟨26, 23, 13, 22, 36⟩, ⟨26, 26, 13, 13, 39⟩,
      ⟨27, 24, 16, 23, 469⟩, ⟨27, 27, 16, 16, 470⟩, ⟨28, 25, 17, 33, 36⟩, ⟨28, 28, 17, 17, 443⟩,
      ⟨29, 29, 21, 21, 361⟩, ⟨29, 34, 21, 15, 120⟩, ⟨30, 30, 22, 22, 361⟩, ⟨30, 35, 22, 13, 120⟩,
      ⟨31, 31, 23, 23, 481⟩, ⟨31, 36, 23, 16, 120⟩, ⟨32, 32, 33, 33, 482⟩, ⟨32, 37, 33, 17, 120⟩,
      ⟨33, 33, 39, 39, 483⟩, ⟨33, 38, 39, 42, 120⟩, ⟨34, 29, 15, 21, 36⟩, ⟨34, 34, 15, 15, 39⟩,
      ⟨35, 30, 13, 22, 36⟩, ⟨35, 35, 13, 13, 484⟩, ⟨36, 31, 16, 23, 36⟩, ⟨36, 36, 16, 16, 39⟩,
      ⟨37, 32, 17, 33, 36⟩, ⟨37, 37, 17, 17, 39⟩, ⟨38, 33, 42, 39, 36⟩, ⟨38, 38, 42, 42, 485⟩,
      ⟨39, 39, 43, 43, 486⟩, ⟨39, 40, 43, 23, 487⟩, ⟨40, 39, 23, 43, 488⟩, ⟨40, 40, 23, 23, 489⟩,
      ⟨40, 41, 23, 16, 490⟩, ⟨41, 40, 16, 23, 491⟩, ⟨41, 41, 16, 16, 492⟩, ⟨41, 42, 16, 28, 493⟩,
      ⟨42, 41, 28, 16, 494⟩, ⟨42, 42, 28, 28, 495⟩, ⟨43, 43, 32, 32, 0⟩, ⟨44, 44, 30, 30, 0⟩,
      ⟨45, 45, 31, 31, 0⟩, ⟨46, 46, 32, 32, 0⟩, ⟨47, 47, 38, 38, 0⟩, ⟨48, 48, 51, 51, 0⟩,
      ⟨49, 49, 44, 44, 471⟩, ⟨49, 52, 44, 31, 472⟩, ⟨50, 50, 55, 55, 471⟩, ⟨50, 53, 55, 32, 473⟩,
      ⟨51, 51, 56, 56, 474⟩, ⟨51, 54, 56, 38, 475⟩, ⟨52, 49, 31, 44, 476⟩, ⟨52, 52, 31, 31, 477⟩,
      ⟨52, 55, 31, 35, 478⟩, ⟨53, 50, 32, 55, 476⟩, ⟨53, 53, 32, 32, 477⟩, ⟨53, 56, 32, 36, 478⟩,
      ⟨54, 51, 38, 56, 476⟩, ⟨54, 54, 38, 38, 477⟩, ⟨54, 57, 38, 41, 478⟩, ⟨55, 52, 35, 31, 479⟩,
      ⟨55, 55, 35, 35, 480⟩, ⟨56, 53, 36, 32, 479⟩, ⟨56, 56, 36, 36, 480⟩, ⟨57, 54, 41, 38, 479⟩,
      ⟨57, 57, 41, 41, 480⟩, ⟨58, 58, 53, 53, 361⟩, ⟨58, 61, 53, 46, 120⟩, ⟨59, 59, 54, 54, 361⟩,
      ⟨59, 62, 54, 49, 120⟩, ⟨60, 60, 63, 63, 468⟩, ⟨60, 63, 63, 50, 120⟩, ⟨61, 58, 46, 53, 36⟩,
      ⟨61, 61, 46, 46, 39⟩, ⟨62, 59, 49, 54, 469⟩, ⟨62, 62, 49, 49, 470⟩, ⟨63, 60, 50, 63, 36⟩,
      ⟨63, 63, 50, 50, 443⟩, ⟨64, 64, 62, 62, 0⟩]⟩,
    ⟨[.plus 0, .plus 2, .plus 0], [0, 3, 0], some [
      ⟨1, 1, 0, 118, 0⟩, ⟨2, 2, 2, 1, 443⟩, ⟨3, 3, 6, 11, 443⟩, ⟨4, 4, 7, 12, 496⟩,
      ⟨5, 2, 1, 1, 48⟩, ⟨5, 5, 1, 119, 0⟩, ⟨6, 3, 11, 11, 48⟩, ⟨6, 6, 11, 120, 0⟩,
      ⟨7, 4, 12, 12, 48⟩, ⟨7, 7, 12, 121, 0⟩, ⟨8, 8, 5, 10, 0⟩, ⟨9, 9, 3, 8, 0⟩,
      ⟨10, 10, 4, 9, 0⟩, ⟨11, 11, 5, 10, 0⟩, ⟨12, 12, 18, 29, 0⟩, ⟨13, 13, 19, 98, 0⟩,
      ⟨14, 14, 20, 4, 497⟩, ⟨15, 15, 24, 5, 497⟩, ⟨16, 16, 25, 18, 498⟩, ⟨17, 14, 4, 4, 479⟩,
      ⟨17, 17, 4, 9, 480⟩, ⟨18, 15, 5, 5, 479⟩, ⟨18, 18, 5, 10, 499⟩, ⟨19, 16, 18, 18, 500⟩,
      ⟨19, 19, 18, 29, 501⟩, ⟨20, 14, 9, 4, 502⟩, ⟨20, 17, 9, 9, 503⟩, ⟨20, 20, 9, 122, 0⟩,
      ⟨21, 15, 10, 5, 502⟩, ⟨21, 18, 10, 10, 503⟩, ⟨21, 21, 10, 123, 0⟩, ⟨22, 16, 29, 18, 502⟩,
      ⟨22, 19, 29, 29, 503⟩, ⟨22, 22, 29, 124, 0⟩, ⟨23, 23, 22, 13, 443⟩, ⟨24, 24, 23, 16, 443⟩,
      ⟨25, 25, 33, 17, 496⟩, ⟨26, 23, 13, 13, 48⟩, ⟨26, 26, 13, 27, 0⟩, ⟨27, 24, 16, 16, 48⟩,
      ⟨27, 27, 16, 28, 0⟩, ⟨28, 25, 17, 17, 48⟩, ⟨28, 28, 17, 83, 0⟩, ⟨29, 29, 21, 15, 443⟩,
      ⟨30, 30, 22, 13, 443⟩, ⟨31, 31, 23, 16, 443⟩, ⟨32, 32, 33, 17, 504⟩, ⟨33, 33, 39, 42, 505⟩,
      ⟨34, 29, 15, 15, 48⟩, ⟨34, 34, 15, 26, 0⟩, ⟨35, 30, 13, 13, 48⟩, ⟨35, 35, 13, 27, 0⟩,
      ⟨36, 31, 16, 16, 48⟩, ⟨36, 36, 16, 28, 0⟩, ⟨37, 32, 17, 17, 48⟩, ⟨37, 37, 17, 83, 0⟩,
      ⟨38, 33, 42, 42, 48⟩, ⟨38, 38, 42, 100, 0⟩, ⟨39, 39, 43, 23, 506⟩, ⟨40, 39, 23, 23, 507⟩,
      ⟨40, 40, 23, 16, 508⟩, ⟨41, 39, 16, 23, 509⟩, ⟨41, 40, 16, 16, 510⟩, ⟨41, 41, 16, 28, 511⟩,
      ⟨42, 40, 28, 16, 512⟩, ⟨42, 41, 28, 28, 513⟩, ⟨42, 42, 28, 125, 0⟩, ⟨43, 43, 32, 36, 0⟩,
      ⟨44, 44, 30, 34, 0⟩, ⟨45, 45, 31, 35, 0⟩, ⟨46, 46, 32, 36, 0⟩, ⟨47, 47, 38, 41, 0⟩,
      ⟨48, 48, 51, 84, 0⟩, ⟨49, 49, 44, 31, 497⟩, ⟨50, 50, 55, 32, 497⟩, ⟨51, 51, 56, 38, 498⟩,
      ⟨52, 49, 31, 31, 479⟩, ⟨52, 52, 31, 35, 480⟩, ⟨53, 50, 32, 32, 479⟩, ⟨53, 53, 32, 36, 499⟩,
      ⟨54, 51, 38, 38, 500⟩, ⟨54, 54, 38, 41, 501⟩, ⟨55, 49, 35, 31, 502⟩, ⟨55, 52, 35, 35, 503⟩,
      ⟨55, 55, 35, 45, 0⟩, ⟨56, 50, 36, 32, 502⟩, ⟨56, 53, 36, 36, 503⟩, ⟨56, 56, 36, 85, 0⟩,
      ⟨57, 51, 41, 38, 502⟩, ⟨57, 54, 41, 41, 503⟩, ⟨57, 57, 41, 103, 0⟩, ⟨58, 58, 53, 46, 443⟩,
      ⟨59, 59, 54, 49, 443⟩, ⟨60, 60, 63, 50, 496⟩, ⟨61, 58, 46, 46, 48⟩, ⟨61, 61, 46, 58, 0⟩,
      ⟨62, 59, 49, 49, 48⟩, ⟨62, 62, 49, 59, 0⟩, ⟨63, 60, 50, 50, 48⟩, ⟨63, 63, 50, 87, 0⟩,
      ⟨64, 64, 62, 66, 0⟩]⟩,
    ⟨[.plus 0, .plus (-2), .plus 0], [0, 3, 0], some [
      ⟨1, 1, 0, 126, 0⟩, ⟨2, 2, 2, 127, 0⟩, ⟨2, 5, 2, 2, 109⟩, ⟨3, 3, 6, 128, 0⟩,
      ⟨3, 6, 6, 6, 109⟩, ⟨4, 4, 7, 129, 0⟩, ⟨4, 7, 7, 7, 109⟩, ⟨5, 5, 1, 2, 361⟩,
      ⟨6, 6, 11, 6, 514⟩, ⟨7, 7, 12, 7, 361⟩, ⟨8, 8, 5, 24, 0⟩, ⟨9, 9, 3, 68, 0⟩,
      ⟨10, 10, 4, 20, 0⟩, ⟨11, 11, 5, 24, 0⟩, ⟨12, 12, 18, 25, 0⟩, ⟨13, 13, 19, 109, 0⟩,
      ⟨14, 14, 20, 130, 0⟩, ⟨14, 17, 20, 20, 515⟩, ⟨14, 20, 20, 4, 516⟩, ⟨15, 15, 24, 131, 0⟩,
      ⟨15, 18, 24, 24, 515⟩, ⟨15, 21, 24, 5, 516⟩, ⟨16, 16, 25, 132, 0⟩, ⟨16, 19, 25, 25, 515⟩,
      ⟨16, 22, 25, 18, 516⟩, ⟨17, 17, 4, 20, 471⟩, ⟨17, 20, 4, 4, 473⟩, ⟨18, 18, 5, 24, 471⟩,
      ⟨18, 21, 5, 5, 473⟩, ⟨19, 19, 18, 25, 471⟩, ⟨19, 22, 18, 18, 517⟩, ⟨20, 20, 9, 4, 518⟩,
      ⟨21, 21, 10, 5, 518⟩, ⟨22, 22, 29, 18, 497⟩, ⟨23, 23, 22, 71, 0⟩, ⟨23, 26, 22, 22, 109⟩,
      ⟨24, 24, 23, 43, 0⟩, ⟨24, 27, 23, 23, 109⟩, ⟨25, 25, 33, 91, 0⟩, ⟨25, 28, 33, 33, 109⟩,
      ⟨26, 26, 13, 22, 361⟩, ⟨27, 27, 16, 23, 514⟩, ⟨28, 28, 17, 33, 361⟩, ⟨29, 29, 21, 70, 0⟩,
      ⟨29, 34, 21, 21, 109⟩, ⟨30, 30, 22, 71, 0⟩, ⟨30, 35, 22, 22, 109⟩, ⟨31, 31, 23, 43, 0⟩,
      ⟨31, 36, 23, 23, 109⟩, ⟨32, 32, 33, 91, 0⟩, ⟨32, 37, 33, 33, 519⟩, ⟨33, 33, 39, 111, 0⟩,
      ⟨33, 38, 39, 39, 520⟩, ⟨34, 34, 15, 21, 361⟩, ⟨35, 35, 13, 22, 361⟩, ⟨36, 36, 16, 23, 361⟩,
      ⟨37, 37, 17, 33, 521⟩, ⟨38, 38, 42, 39, 361⟩, ⟨39, 39, 43, 133, 0⟩, ⟨39, 40, 43, 43, 522⟩,
      ⟨39, 41, 43, 23, 523⟩, ⟨40, 40, 23, 43, 524⟩, ⟨40, 41, 23, 23, 525⟩, ⟨40, 42, 23, 16, 509⟩,
      ⟨41, 41, 16, 23, 526⟩, ⟨41, 42, 16, 16, 527⟩, ⟨42, 42, 28, 16, 528⟩, ⟨43, 43, 32, 55, 0⟩,
      ⟨44, 44, 30, 72, 0⟩, ⟨45, 45, 31, 44, 0⟩, ⟨46, 46, 32, 55, 0⟩, ⟨47, 47, 38, 56, 0⟩,
      ⟨48, 48, 51, 92, 0⟩, ⟨49, 49, 44, 74, 0⟩, ⟨49, 52, 44, 44, 515⟩, ⟨49, 55, 44, 31, 516⟩,
      ⟨50, 50, 55, 93, 0⟩, ⟨50, 53, 55, 55, 515⟩, ⟨50, 56, 55, 32, 516⟩, ⟨51, 51, 56, 113, 0⟩,
      ⟨51, 54, 56, 56, 515⟩, ⟨51, 57, 56, 38, 516⟩, ⟨52, 52, 31, 44, 471⟩, ⟨52, 55, 31, 31, 473⟩,
      ⟨53, 53, 32, 55, 471⟩, ⟨53, 56, 32, 32, 473⟩, ⟨54, 54, 38, 56, 471⟩, ⟨54, 57, 38, 38, 517⟩,
      ⟨55, 55, 35, 31, 518⟩, ⟨56, 56, 36, 32, 518⟩, ⟨57, 57, 41, 38, 497⟩, ⟨58, 58, 53, 77, 0⟩,
      ⟨58, 61, 53, 53, 109⟩, ⟨59, 59, 54, 78, 0⟩, ⟨59, 62, 54, 54, 109⟩, ⟨60, 60, 63, 95, 0⟩,
      ⟨60, 63, 63, 63, 109⟩, ⟨61, 61, 46, 53, 361⟩, ⟨62, 62, 49, 54, 514⟩, ⟨63, 63, 50, 63, 361⟩,
      ⟨64, 64, 62, 81, 0⟩]⟩]

/-- `recalc_orb_triplet` in `nrg-recalc-QST.hpp:280-`, 3 channel(s): `qst-orb-triplets.dat`, `qst-orb-tripletp.dat`, `qst-orb-tripletm.dat`. -/
def op_QST_3ch_orbTriplet : OpTable where
  builtin := ⟨"QST", 3, fields_QST, tab_QST_3ch⟩
  kind := .orbTriplet
  labs := labs_QST
  targets := [
    ⟨[.plus 0, .plus 0, .plus 0], [0, 1, 1], some [
      ⟨1, 1, 0, 0, 0⟩, ⟨2, 2, 2, 2, 55⟩, ⟨2, 3, 2, 6, 275⟩, ⟨3, 2, 6, 2, 11⟩, ⟨3, 3, 6, 6, 221⟩,
      ⟨3, 4, 6, 7, 222⟩, ⟨4, 3, 7, 6, 280⟩, ⟨4, 4, 7, 7, 281⟩, ⟨5, 5, 1, 1, 55⟩,
      ⟨5, 6, 1, 11, 112⟩, ⟨6, 5, 11, 1, 11⟩, ⟨6, 6, 11, 11, 221⟩, ⟨6, 7, 11, 12, 222⟩,
      ⟨7, 6, 12, 11, 280⟩, ⟨7, 7, 12, 12, 281⟩, ⟨8, 8, 5, 5, 0⟩, ⟨9, 9, 3, 3, 185⟩,
      ⟨9, 10, 3, 4, 186⟩, ⟨10, 9, 4, 3, 72⟩, ⟨10, 10, 4, 4, 187⟩, ⟨10, 11, 4, 5, 25⟩,
      ⟨11, 10, 5, 4, 188⟩, ⟨11, 11, 5, 5, 189⟩, ⟨11, 12, 5, 18, 190⟩, ⟨12, 11, 18, 5, 191⟩,
      ⟨12, 12, 18, 18, 192⟩, ⟨12, 13, 18, 19, 193⟩, ⟨13, 12, 19, 18, 194⟩, ⟨13, 13, 19, 19, 195⟩,
      ⟨14, 14, 20, 20, 55⟩, ⟨14, 15, 20, 24, 275⟩, ⟨15, 14, 24, 20, 11⟩, ⟨15, 15, 24, 24, 221⟩,
      ⟨15, 16, 24, 25, 222⟩, ⟨16, 15, 25, 24, 280⟩, ⟨16, 16, 25, 25, 281⟩, ⟨17, 17, 4, 4, 55⟩,
      ⟨17, 18, 4, 5, 112⟩, ⟨18, 17, 5, 4, 11⟩, ⟨18, 18, 5, 5, 221⟩, ⟨18, 19, 5, 18, 222⟩,
      ⟨19, 18, 18, 5, 280⟩, ⟨19, 19, 18, 18, 529⟩, ⟨20, 20, 9, 9, 530⟩, ⟨20, 21, 9, 10, 531⟩,
      ⟨21, 20, 10, 9, 11⟩, ⟨21, 21, 10, 10, 221⟩, ⟨21, 22, 10, 29, 222⟩, ⟨22, 21, 29, 10, 280⟩,
      ⟨22, 22, 29, 29, 281⟩, ⟨23, 23, 22, 22, 55⟩, ⟨23, 24, 22, 23, 275⟩, ⟨24, 23, 23, 22, 11⟩,
      ⟨24, 24, 23, 23, 221⟩, ⟨24, 25, 23, 33, 222⟩, ⟨25, 24, 33, 23, 280⟩, ⟨25, 25, 33, 33, 281⟩,
      ⟨26, 26, 13, 13, 55⟩, ⟨26, 27, 13, 16, 112⟩, ⟨27, 26, 16, 13, 11⟩, ⟨27, 27, 16, 16, 221⟩,
      ⟨27, 28, 16, 17, 222⟩, ⟨28, 27, 17, 16, 280⟩, ⟨28, 28, 17, 17, 281⟩, ⟨29, 29, 21, 21, 185⟩,
      ⟨29, 30, 21, 22, 186⟩, ⟨30, 29, 22, 21, 72⟩, ⟨30, 30, 22, 22, 187⟩, ⟨30, 31, 22, 23, 25⟩,
      ⟨31, 30, 23, 22, 188⟩, ⟨31, 31, 23, 23, 189⟩, ⟨31, 32, 23, 33, 190⟩, ⟨32, 31, 33, 23, 191⟩,
      ⟨32, 32, 33, 33, 192⟩, ⟨32, 33, 33, 39, 193⟩, ⟨33, 32, 39, 33, 532⟩, ⟨33, 33, 39, 39, 354⟩,
      ⟨34, 34, 15, 15, 185⟩, ⟨34, 35, 15, 13, 533⟩, ⟨35, 34, 13, 15, 72⟩, ⟨35, 35, 13, 13, 534⟩,
      ⟨35, 36, 13, 16, 535⟩, ⟨36, 35, 16, 13, 188⟩, ⟨36, 36, 16, 16, 189⟩, ⟨36, 37, 16, 17, 536⟩,
      ⟨37, 36, 17, 16, 537⟩, ⟨37, 37, 17, 17, 192⟩, ⟨37, 38, 17, 42, 538⟩, ⟨38, 37, 42, 17, 539⟩,
      ⟨38, 38, 42, 42, 540⟩, ⟨39, 39, 43, 43, 0⟩, ⟨40, 40, 23, 23, 0⟩, ⟨41, 41, 16, 16, 0⟩,
      ⟨42, 42, 28, 28, 0⟩, ⟨43, 43, 32, 32, 0⟩, ⟨44, 44, 30, 30, 185⟩, ⟨44, 45, 30, 31, 186⟩,
      ⟨45, 44, 31, 30, 72⟩, ⟨45, 45, 31, 31, 187⟩, ⟨45, 46, 31, 32, 25⟩, ⟨46, 45, 32, 31, 188⟩,
      ⟨46, 46, 32, 32, 189⟩, ⟨46, 47, 32, 38, 190⟩, ⟨47, 46, 38, 32, 191⟩, ⟨47, 47, 38, 38, 192⟩,
      ⟨47, 48, 38, 51, 193⟩, ⟨48, 47, 51, 38, 194⟩, ⟨48, 48, 51, 51, 195⟩, ⟨49, 49, 44, 44, 55⟩,
      ⟨49, 50, 44, 55, 275⟩, ⟨50, 49, 55, 44, 11⟩, ⟨50, 50, 55, 55, 221⟩, ⟨50, 51, 55, 56, 222⟩,
      ⟨51, 50, 56, 55, 280⟩, ⟨51, 51, 56, 56, 281⟩, ⟨52, 52, 31, 31, 55⟩, ⟨52, 53, 31, 32, 112⟩,
      ⟨53, 52, 32, 31, 11⟩, ⟨53, 53, 32, 32, 221⟩, ⟨53, 54, 32, 38, 222⟩, ⟨54, 53, 38, 32, 280⟩,
      ⟨54, 54, 38, 38, 529⟩, ⟨55, 55, 35, 35, 530⟩, ⟨55, 56, 35, 36, 531⟩, ⟨56, 55, 36, 35, 11⟩,
      ⟨56, 56, 36, 36, 221⟩, ⟨56, 57, 36, 41, 222⟩, ⟨57, 56, 41, 36, 280⟩, ⟨57, 57, 41, 41, 281⟩,
      ⟨58, 58, 53, 53, 55⟩, ⟨58, 59, 53, 54, 275⟩, ⟨59, 58, 54, 53, 11⟩, ⟨59, 59, 54, 54, 221⟩,
      ⟨59, 60, 54, 63, 222⟩, ⟨60, 59, 63, 54, 280⟩, ⟨60, 60, 63, 63, 281⟩, ⟨61, 61, 46, 46, 55⟩,
      ⟨61, 62, 46, 49, 112⟩, ⟨62, 61, 49, 46, 11⟩, ⟨62, 62, 49, 49, 221⟩, ⟨62, 63, 49, 50, 222⟩,
      ⟨63, 62, 50, 49, 280⟩, ⟨63, 63, 50, 50, 281⟩, ⟨64, 64, 62, 62, 0⟩]⟩,
    ⟨[.plus 0, .plus 0, .plus 1], [0, 1, 1], some [
      ⟨1, 1, 0, 134, 0⟩, ⟨2, 2, 2, 6, 372⟩, ⟨3, 2, 6, 6, 280⟩, ⟨3, 3, 6, 7, 281⟩,
      ⟨4, 2, 7, 6, 377⟩, ⟨4, 3, 7, 7, 266⟩, ⟨4, 4, 7, 135, 0⟩, ⟨5, 5, 1, 11, 372⟩,
      ⟨6, 5, 11, 11, 280⟩, ⟨6, 6, 11, 12, 281⟩, ⟨7, 5, 12, 11, 377⟩, ⟨7, 6, 12, 12, 266⟩,
      ⟨7, 7, 12, 136, 0⟩, ⟨8, 8, 5, 18, 0⟩, ⟨9, 9, 3, 4, 346⟩, ⟨10, 9, 4, 4, 347⟩,
      ⟨10, 10, 4, 5, 348⟩, ⟨11, 9, 5, 4, 349⟩, ⟨11, 10, 5, 5, 350⟩, ⟨11, 11, 5, 18, 351⟩,
      ⟨12, 10, 18, 5, 352⟩, ⟨12, 11, 18, 18, 353⟩, ⟨12, 12, 18, 19, 354⟩, ⟨13, 11, 19, 18, 355⟩,
      ⟨13, 12, 19, 19, 356⟩, ⟨13, 13, 19, 137, 0⟩, ⟨14, 14, 20, 24, 372⟩, ⟨15, 14, 24, 24, 280⟩,
      ⟨15, 15, 24, 25, 281⟩, ⟨16, 14, 25, 24, 377⟩, ⟨16, 15, 25, 25, 266⟩, ⟨16, 16, 25, 109, 0⟩,
      ⟨17, 17, 4, 5, 372⟩, ⟨18, 17, 5, 5, 280⟩, ⟨18, 18, 5, 18, 541⟩, ⟨19, 17, 18, 5, 377⟩,
      ⟨19, 18, 18, 18, 542⟩, ⟨19, 19, 18, 19, 0⟩, ⟨20, 20, 9, 10, 543⟩, ⟨21, 20, 10, 10, 375⟩,
      ⟨21, 21, 10, 29, 544⟩, ⟨22, 20, 29, 10, 377⟩, ⟨22, 21, 29, 29, 266⟩, ⟨22, 22, 29, 98, 0⟩,
      ⟨23, 23, 22, 23, 372⟩, ⟨24, 23, 23, 23, 280⟩, ⟨24, 24, 23, 33, 281⟩, ⟨25, 23, 33, 23, 377⟩,
      ⟨25, 24, 33, 33, 266⟩, ⟨25, 25, 33, 39, 0⟩, ⟨26, 26, 13, 16, 372⟩, ⟨27, 26, 16, 16, 280⟩,
      ⟨27, 27, 16, 17, 281⟩, ⟨28, 26, 17, 16, 377⟩, ⟨28, 27, 17, 17, 266⟩, ⟨28, 28, 17, 42, 0⟩,
      ⟨29, 29, 21, 22, 346⟩, ⟨30, 29, 22, 22, 347⟩, ⟨30, 30, 22, 23, 348⟩, ⟨31, 29, 23, 22, 349⟩,
      ⟨31, 30, 23, 23, 350⟩, ⟨31, 31, 23, 33, 421⟩, ⟨32, 30, 33, 23, 352⟩, ⟨32, 31, 33, 33, 422⟩,
      ⟨32, 32, 33, 39, 423⟩, ⟨33, 31, 39, 33, 355⟩, ⟨33, 32, 39, 39, 356⟩, ⟨33, 33, 39, 110, 0⟩,
      ⟨34, 34, 15, 13, 346⟩, ⟨35, 34, 13, 13, 545⟩, ⟨35, 35, 13, 16, 546⟩, ⟨36, 34, 16, 13, 547⟩,
      ⟨36, 35, 16, 16, 548⟩, ⟨36, 36, 16, 17, 549⟩, ⟨37, 35, 17, 16, 352⟩, ⟨37, 36, 17, 17, 550⟩,
      ⟨37, 37, 17, 42, 551⟩, ⟨38, 36, 42, 17, 355⟩, ⟨38, 37, 42, 42, 356⟩, ⟨38, 38, 42, 99, 0⟩,
      ⟨39, 39, 43, 91, 0⟩, ⟨40, 40, 23, 33, 0⟩, ⟨41, 41, 16, 17, 0⟩, ⟨42, 42, 28, 83, 0⟩,
      ⟨43, 43, 32, 38, 0⟩, ⟨44, 44, 30, 31, 346⟩, ⟨45, 44, 31, 31, 347⟩, ⟨45, 45, 31, 32, 348⟩,
      ⟨46, 44, 32, 31, 349⟩, ⟨46, 45, 32, 32, 350⟩, ⟨46, 46, 32, 38, 351⟩, ⟨47, 45, 38, 32, 352⟩,
      ⟨47, 46, 38, 38, 353⟩, ⟨47, 47, 38, 51, 354⟩, ⟨48, 46, 51, 38, 355⟩, ⟨48, 47, 51, 51, 356⟩,
      ⟨48, 48, 51, 101, 0⟩, ⟨49, 49, 44, 55, 372⟩, ⟨50, 49, 55, 55, 280⟩, ⟨50, 50, 55, 56, 281⟩,
      ⟨51, 49, 56, 55, 377⟩, ⟨51, 50, 56, 56, 266⟩, ⟨51, 51, 56, 92, 0⟩, ⟨52, 52, 31, 32, 372⟩,
      ⟨53, 52, 32, 32, 280⟩, ⟨53, 53, 32, 38, 541⟩, ⟨54, 52, 38, 32, 377⟩, ⟨54, 53, 38, 38, 542⟩,
      ⟨54, 54, 38, 51, 0⟩, ⟨55, 55, 35, 36, 543⟩, ⟨56, 55, 36, 36, 375⟩, ⟨56, 56, 36, 41, 544⟩,
      ⟨57, 55, 41, 36, 377⟩, ⟨57, 56, 41, 41, 266⟩, ⟨57, 57, 41, 84, 0⟩, ⟨58, 58, 53, 54, 372⟩,
      ⟨59, 58, 54, 54, 280⟩, ⟨59, 59, 54, 63, 281⟩, ⟨60, 58, 63, 54, 377⟩, ⟨60, 59, 63, 63, 266⟩,
      ⟨60, 60, 63, 94, 0⟩, ⟨61, 61, 46, 49, 372⟩, ⟨62, 61, 49, 49, 280⟩, ⟨62, 62, 49, 50, 281⟩,
      ⟨63, 61, 50, 49, 377⟩, ⟨63, 62, 50, 50, 266⟩, ⟨63, 63, 50, 86, 0⟩, ⟨64, 64, 62, 88, 0⟩]⟩,
    ⟨[.plus 0, .plus 0, .plus (-1)], [0, 1, 1], some [
      ⟨1, 1, 0, 138, 0⟩, ⟨2, 2, 2, 139, 0⟩, ⟨2, 3, 2, 2, 51⟩, ⟨2, 4, 2, 6, 52⟩, ⟨3, 3, 6, 2, 55⟩,
      ⟨3, 4, 6, 6, 112⟩, ⟨4, 4, 7, 6, 115⟩, ⟨5, 5, 1, 140, 0⟩, ⟨5, 6, 1, 1, 51⟩,
      ⟨5, 7, 1, 11, 52⟩, ⟨6, 6, 11, 1, 55⟩, ⟨6, 7, 11, 11, 56⟩, ⟨7, 7, 12, 11, 372⟩,
      ⟨8, 8, 5, 4, 0⟩, ⟨9, 9, 3, 141, 0⟩, ⟨9, 10, 3, 3, 19⟩, ⟨9, 11, 3, 4, 20⟩,
      ⟨10, 10, 4, 3, 21⟩, ⟨10, 11, 4, 4, 22⟩, ⟨10, 12, 4, 5, 23⟩, ⟨11, 11, 5, 4, 24⟩,
      ⟨11, 12, 5, 5, 25⟩, ⟨11, 13, 5, 18, 26⟩, ⟨12, 12, 18, 5, 27⟩, ⟨12, 13, 18, 18, 28⟩,
      ⟨13, 13, 19, 18, 29⟩, ⟨14, 14, 20, 68, 0⟩, ⟨14, 15, 20, 20, 51⟩, ⟨14, 16, 20, 24, 52⟩,
      ⟨15, 15, 24, 20, 55⟩, ⟨15, 16, 24, 24, 112⟩, ⟨16, 16, 25, 24, 115⟩, ⟨17, 17, 4, 3, 0⟩,
      ⟨17, 18, 4, 4, 51⟩, ⟨17, 19, 4, 5, 52⟩, ⟨18, 18, 5, 4, 552⟩, ⟨18, 19, 5, 5, 553⟩,
      ⟨19, 19, 18, 5, 554⟩, ⟨20, 20, 9, 8, 0⟩, ⟨20, 21, 9, 9, 51⟩, ⟨20, 22, 9, 10, 52⟩,
      ⟨21, 21, 10, 9, 55⟩, ⟨21, 22, 10, 10, 555⟩, ⟨22, 22, 29, 10, 372⟩, ⟨23, 23, 22, 21, 0⟩,
      ⟨23, 24, 22, 22, 51⟩, ⟨23, 25, 22, 23, 52⟩, ⟨24, 24, 23, 22, 55⟩, ⟨24, 25, 23, 23, 112⟩,
      ⟨25, 25, 33, 23, 115⟩, ⟨26, 26, 13, 15, 0⟩, ⟨26, 27, 13, 13, 51⟩, ⟨26, 28, 13, 16, 52⟩,
      ⟨27, 27, 16, 13, 55⟩, ⟨27, 28, 16, 16, 56⟩, ⟨28, 28, 17, 16, 372⟩, ⟨29, 29, 21, 69, 0⟩,
      ⟨29, 30, 21, 21, 19⟩, ⟨29, 31, 21, 22, 20⟩, ⟨30, 30, 22, 21, 21⟩, ⟨30, 31, 22, 22, 22⟩,
      ⟨30, 32, 22, 23, 23⟩, ⟨31, 31, 23, 22, 24⟩, ⟨31, 32, 23, 23, 25⟩, ⟨31, 33, 23, 33, 26⟩,
      ⟨32, 32, 33, 23, 27⟩, ⟨32, 33, 33, 33, 28⟩, ⟨33, 33, 39, 33, 556⟩, ⟨34, 34, 15, 14, 0⟩,
      ⟨34, 35, 15, 15, 19⟩, ⟨34, 36, 15, 13, 20⟩, ⟨35, 35, 13, 15, 557⟩, ⟨35, 36, 13, 13, 558⟩,
      ⟨35, 37, 13, 16, 23⟩, ⟨36, 36, 16, 13, 24⟩, ⟨36, 37, 16, 16, 559⟩, ⟨36, 38, 16, 17, 26⟩,
      ⟨37, 37, 17, 16, 560⟩, ⟨37, 38, 17, 17, 561⟩, ⟨38, 38, 42, 17, 562⟩, ⟨39, 39, 43, 71, 0⟩,
      ⟨40, 40, 23, 22, 0⟩, ⟨41, 41, 16, 13, 0⟩, ⟨42, 42, 28, 27, 0⟩, ⟨43, 43, 32, 31, 0⟩,
      ⟨44, 44, 30, 37, 0⟩, ⟨44, 45, 30, 30, 19⟩, ⟨44, 46, 30, 31, 20⟩, ⟨45, 45, 31, 30, 21⟩,
      ⟨45, 46, 31, 31, 22⟩, ⟨45, 47, 31, 32, 23⟩, ⟨46, 46, 32, 31, 24⟩, ⟨46, 47, 32, 32, 25⟩,
      ⟨46, 48, 32, 38, 26⟩, ⟨47, 47, 38, 32, 27⟩, ⟨47, 48, 38, 38, 28⟩, ⟨48, 48, 51, 38, 29⟩,
      ⟨49, 49, 44, 72, 0⟩, ⟨49, 50, 44, 44, 51⟩, ⟨49, 51, 44, 55, 52⟩, ⟨50, 50, 55, 44, 55⟩,
      ⟨50, 51, 55, 55, 112⟩, ⟨51, 51, 56, 55, 115⟩, ⟨52, 52, 31, 30, 0⟩, ⟨52, 53, 31, 31, 51⟩,
      ⟨52, 54, 31, 32, 52⟩, ⟨53, 53, 32, 31, 552⟩, ⟨53, 54, 32, 32, 553⟩, ⟨54, 54, 38, 32, 554⟩,
      ⟨55, 55, 35, 34, 0⟩, ⟨55, 56, 35, 35, 51⟩, ⟨55, 57, 35, 36, 52⟩, ⟨56, 56, 36, 35, 55⟩,
      ⟨56, 57, 36, 36, 555⟩, ⟨57, 57, 41, 36, 372⟩, ⟨58, 58, 53, 52, 0⟩, ⟨58, 59, 53, 53, 51⟩,
      ⟨58, 60, 53, 54, 52⟩, ⟨59, 59, 54, 53, 55⟩, ⟨59, 60, 54, 54, 112⟩, ⟨60, 60, 63, 54, 115⟩,
      ⟨61, 61, 46, 48, 0⟩, ⟨61, 62, 46, 46, 51⟩, ⟨61, 63, 46, 49, 52⟩, ⟨62, 62, 49, 46, 55⟩,
      ⟨62, 63, 49, 49, 56⟩, ⟨63, 63, 50, 49, 372⟩, ⟨64, 64, 62, 61, 0⟩]⟩]

end Verif.Oper
