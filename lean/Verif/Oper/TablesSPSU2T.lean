import Verif.Oper.Model
/-!
# The shipped operator recalculation tables, class SPSU2T

Generated by `scripts/gen_opers.py` from `c++/symmetry/nrg-recalc-*.hpp` and the
files they include from `c++/symmetry/coefnew`.
-/

namespace Verif.Oper
open Verif.Symm

/-- The label expressions in the operator tables of `SPSU2T`. -/
def labs_SPSU2T : List LabelExpr := [
  [.plus 0, .plus 0],
  [.plus 1, .plus (-1)],
  [.plus 0, .plus (-2)],
  [.plus 1, .plus (-3)],
  [.plus 1, .plus (-2)],
  [.plus 0, .plus (-1)],
  [.plus 1, .plus 0],
  [.plus 1, .plus 1],
  [.plus 0, .plus 1],
  [.plus 0, .plus 2],
  [.plus (-1), .plus (-1)],
  [.plus (-1), .plus 0],
  [.plus (-1), .plus 1],
  [.plus 2, .plus (-2)],
  [.plus 2, .plus (-1)],
  [.plus 2, .plus 0],
  [.plus (-1), .plus (-2)],
  [.plus 0, .plus (-3)],
  [.plus (-1), .plus 2],
  [.plus 2, .plus (-3)],
  [.plus 2, .plus 1],
  [.plus 1, .plus 2],
  [.plus (-2), .plus (-1)],
  [.plus (-2), .plus 0],
  [.plus (-2), .plus 1],
  [.plus 3, .plus (-2)],
  [.plus 3, .plus (-1)],
  [.plus 3, .plus 0],
  [.plus (-3), .plus 0],
  [.plus 4, .plus (-1)],
  [.plus (-1), .plus (-3)],
  [.plus (-2), .plus (-2)],
  [.plus (-2), .plus (-3)],
  [.plus (-3), .plus (-2)],
  [.plus (-3), .plus (-1)],
  [.plus (-4), .plus (-1)],
  [.plus 2, .plus 2],
  [.plus 3, .plus 1],
  [.plus 4, .plus 0],
  [.plus (-2), .plus 2],
  [.plus (-3), .plus 1],
  [.plus (-4), .plus 0],
  [.plus 1, .plus 3],
  [.plus 0, .plus 3],
  [.plus 2, .plus 3],
  [.plus 3, .plus 2],
  [.plus 4, .plus 1],
  [.plus (-1), .plus 3],
  [.plus (-2), .plus 3],
  [.plus (-3), .plus 2],
  [.plus (-4), .plus 1],
  [.plus 5, .plus 0],
  [.plus (-5), .plus 0]]

/-- `recalc_doublet` in `nrg-recalc-SPSU2T.hpp:32-`, 3 channel(s): `spsu2t-doubletp-1.dat`, `spsu2t-doubletm-1.dat`, `spsu2t-doubletp0.dat`, `spsu2t-doubletm0.dat`, `spsu2t-doubletp+1.dat`, `spsu2t-doubletm+1.dat`. -/
def op_SPSU2T_3ch_doublet : OpTable where
  builtin := ⟨"SPSU2T", 3, fields_SPSU2T, tab_SPSU2T_3ch⟩
  kind := .doublet
  labs := labs_SPSU2T
  targets := [
    ⟨[.plus 1, .plus (-1)], [1, 2, 1], some [
      ⟨1, 1, 0, 1, 0⟩, ⟨2, 2, 0, 1, 0⟩, ⟨3, 3, 0, 1, 0⟩, ⟨4, 4, 0, 1, 0⟩, ⟨5, 5, 2, 3, 0⟩,
      ⟨5, 6, 2, 4, 1⟩, ⟨5, 7, 2, 1, 2⟩, ⟨6, 6, 5, 4, 3⟩, ⟨6, 7, 5, 1, 4⟩, ⟨6, 8, 5, 6, 5⟩,
      ⟨7, 7, 0, 1, 6⟩, ⟨7, 8, 0, 6, 7⟩, ⟨7, 9, 0, 7, 8⟩, ⟨8, 8, 8, 6, 9⟩, ⟨8, 9, 8, 7, 10⟩,
      ⟨9, 9, 9, 7, 11⟩, ⟨10, 10, 2, 3, 0⟩, ⟨10, 11, 2, 4, 1⟩, ⟨10, 12, 2, 1, 2⟩,
      ⟨11, 11, 5, 4, 3⟩, ⟨11, 12, 5, 1, 4⟩, ⟨11, 13, 5, 6, 5⟩, ⟨12, 12, 0, 1, 6⟩,
      ⟨12, 13, 0, 6, 7⟩, ⟨12, 14, 0, 7, 8⟩, ⟨13, 13, 8, 6, 9⟩, ⟨13, 14, 8, 7, 10⟩,
      ⟨14, 14, 9, 7, 11⟩, ⟨15, 15, 10, 2, 12⟩, ⟨15, 16, 10, 5, 13⟩, ⟨15, 17, 10, 0, 14⟩,
      ⟨16, 16, 11, 5, 15⟩, ⟨16, 17, 11, 0, 16⟩, ⟨17, 17, 12, 0, 17⟩, ⟨18, 15, 1, 2, 18⟩,
      ⟨18, 16, 1, 5, 19⟩, ⟨18, 17, 1, 0, 20⟩, ⟨18, 18, 1, 13, 21⟩, ⟨18, 19, 1, 14, 22⟩,
      ⟨18, 20, 1, 15, 23⟩, ⟨19, 16, 6, 5, 24⟩, ⟨19, 17, 6, 0, 25⟩, ⟨19, 19, 6, 14, 26⟩,
      ⟨19, 20, 6, 15, 27⟩, ⟨20, 17, 7, 0, 28⟩, ⟨20, 20, 7, 15, 29⟩, ⟨21, 21, 10, 2, 12⟩,
      ⟨21, 22, 10, 5, 13⟩, ⟨21, 23, 10, 0, 14⟩, ⟨22, 22, 11, 5, 15⟩, ⟨22, 23, 11, 0, 16⟩,
      ⟨23, 23, 12, 0, 17⟩, ⟨24, 21, 1, 2, 18⟩, ⟨24, 22, 1, 5, 19⟩, ⟨24, 23, 1, 0, 20⟩,
      ⟨24, 24, 1, 13, 21⟩, ⟨24, 25, 1, 14, 22⟩, ⟨24, 26, 1, 15, 23⟩, ⟨25, 22, 6, 5, 24⟩,
      ⟨25, 23, 6, 0, 30⟩, ⟨25, 25, 6, 14, 26⟩, ⟨25, 26, 6, 15, 27⟩, ⟨26, 23, 7, 0, 31⟩,
      ⟨26, 26, 7, 15, 32⟩, ⟨27, 27, 10, 2, 12⟩, ⟨27, 28, 10, 5, 13⟩, ⟨27, 29, 10, 0, 14⟩,
      ⟨28, 28, 11, 5, 15⟩, ⟨28, 29, 11, 0, 16⟩, ⟨29, 29, 12, 0, 17⟩, ⟨30, 27, 1, 2, 18⟩,
      ⟨30, 28, 1, 5, 19⟩, ⟨30, 29, 1, 0, 20⟩, ⟨30, 30, 1, 13, 21⟩, ⟨30, 31, 1, 14, 22⟩,
      ⟨30, 32, 1, 15, 23⟩, ⟨31, 28, 6, 5, 24⟩, ⟨31, 29, 6, 0, 25⟩, ⟨31, 31, 6, 14, 26⟩,
      ⟨31, 32, 6, 15, 27⟩, ⟨32, 29, 7, 0, 28⟩, ⟨32, 32, 7, 15, 29⟩, ⟨33, 33, 16, 17, 12⟩,
      ⟨33, 34, 16, 2, 33⟩, ⟨33, 35, 16, 5, 34⟩, ⟨34, 34, 10, 2, 35⟩, ⟨34, 35, 10, 5, 36⟩,
      ⟨34, 36, 10, 0, 37⟩, ⟨35, 35, 11, 5, 38⟩, ⟨35, 36, 11, 0, 39⟩, ⟨35, 37, 11, 8, 40⟩,
      ⟨36, 36, 12, 0, 41⟩, ⟨36, 37, 12, 8, 42⟩, ⟨37, 37, 18, 8, 43⟩, ⟨38, 33, 4, 17, 18⟩,
      ⟨38, 34, 4, 2, 44⟩, ⟨38, 35, 4, 5, 45⟩, ⟨38, 38, 4, 19, 21⟩, ⟨38, 39, 4, 13, 46⟩,
      ⟨38, 40, 4, 14, 47⟩, ⟨39, 34, 1, 2, 48⟩, ⟨39, 35, 1, 5, 49⟩, ⟨39, 36, 1, 0, 50⟩,
      ⟨39, 39, 1, 13, 51⟩, ⟨39, 40, 1, 14, 52⟩, ⟨39, 41, 1, 15, 53⟩, ⟨40, 35, 6, 5, 54⟩,
      ⟨40, 36, 6, 0, 55⟩, ⟨40, 37, 6, 8, 56⟩, ⟨40, 40, 6, 14, 57⟩, ⟨40, 41, 6, 15, 58⟩,
      ⟨40, 42, 6, 20, 59⟩, ⟨41, 36, 7, 0, 60⟩, ⟨41, 37, 7, 8, 61⟩, ⟨41, 41, 7, 15, 62⟩,
      ⟨41, 42, 7, 20, 63⟩, ⟨42, 37, 21, 8, 64⟩, ⟨42, 42, 21, 20, 65⟩, ⟨43, 43, 22, 16, 66⟩,
      ⟨43, 44, 22, 10, 67⟩, ⟨43, 45, 22, 11, 68⟩, ⟨44, 44, 23, 10, 69⟩, ⟨44, 45, 23, 11, 70⟩,
      ⟨45, 45, 24, 11, 71⟩, ⟨46, 43, 5, 16, 72⟩, ⟨46, 44, 5, 10, 73⟩, ⟨46, 45, 5, 11, 74⟩,
      ⟨46, 46, 5, 4, 75⟩, ⟨46, 47, 5, 1, 76⟩, ⟨46, 48, 5, 6, 77⟩, ⟨47, 44, 0, 10, 78⟩,
      ⟨47, 45, 0, 11, 79⟩, ⟨47, 47, 0, 1, 80⟩, ⟨47, 48, 0, 6, 81⟩, ⟨48, 45, 8, 11, 82⟩,
      ⟨48, 48, 8, 6, 83⟩, ⟨49, 46, 14, 4, 84⟩, ⟨49, 47, 14, 1, 85⟩, ⟨49, 48, 14, 6, 86⟩,
      ⟨49, 49, 14, 25, 0⟩, ⟨49, 50, 14, 26, 87⟩, ⟨49, 51, 14, 27, 88⟩, ⟨50, 47, 15, 1, 89⟩,
      ⟨50, 48, 15, 6, 90⟩, ⟨50, 50, 15, 26, 91⟩, ⟨50, 51, 15, 27, 92⟩, ⟨51, 48, 20, 6, 93⟩,
      ⟨51, 51, 20, 27, 94⟩, ⟨52, 52, 22, 16, 66⟩, ⟨52, 53, 22, 10, 67⟩, ⟨52, 54, 22, 11, 68⟩,
      ⟨53, 53, 23, 10, 69⟩, ⟨53, 54, 23, 11, 70⟩, ⟨54, 54, 24, 11, 71⟩, ⟨55, 52, 5, 16, 72⟩,
      ⟨55, 53, 5, 10, 73⟩, ⟨55, 54, 5, 11, 74⟩, ⟨55, 55, 5, 4, 75⟩, ⟨55, 56, 5, 1, 76⟩,
      ⟨55, 57, 5, 6, 77⟩, ⟨56, 53, 0, 10, 78⟩, ⟨56, 54, 0, 11, 79⟩, ⟨56, 56, 0, 1, 80⟩,
      ⟨56, 57, 0, 6, 81⟩, ⟨57, 54, 8, 11, 82⟩, ⟨57, 57, 8, 6, 83⟩, ⟨58, 55, 14, 4, 84⟩,
      ⟨58, 56, 14, 1, 85⟩, ⟨58, 57, 14, 6, 86⟩, ⟨58, 58, 14, 25, 0⟩, ⟨58, 59, 14, 26, 87⟩,
      ⟨58, 60, 14, 27, 88⟩, ⟨59, 56, 15, 1, 89⟩, ⟨59, 57, 15, 6, 90⟩, ⟨59, 59, 15, 26, 91⟩,
      ⟨59, 60, 15, 27, 92⟩, ⟨60, 57, 20, 6, 93⟩, ⟨60, 60, 20, 27, 94⟩, ⟨61, 61, 28, 22, 95⟩,
      ⟨62, 61, 11, 22, 96⟩, ⟨62, 62, 11, 5, 97⟩, ⟨63, 62, 6, 5, 98⟩, ⟨63, 63, 6, 14, 99⟩,
      ⟨64, 63, 27, 14, 100⟩, ⟨64, 64, 27, 29, 21⟩]⟩,
    ⟨[.plus (-1), .plus (-1)], [1, 2, 1], some [
      ⟨1, 1, 0, 10, 0⟩, ⟨2, 2, 0, 10, 0⟩, ⟨3, 3, 0, 10, 0⟩, ⟨4, 4, 0, 10, 0⟩, ⟨5, 5, 2, 30, 0⟩,
      ⟨5, 6, 2, 16, 1⟩, ⟨5, 7, 2, 10, 2⟩, ⟨6, 6, 5, 16, 3⟩, ⟨6, 7, 5, 10, 4⟩, ⟨6, 8, 5, 11, 5⟩,
      ⟨7, 7, 0, 10, 6⟩, ⟨7, 8, 0, 11, 7⟩, ⟨7, 9, 0, 12, 8⟩, ⟨8, 8, 8, 11, 9⟩, ⟨8, 9, 8, 12, 10⟩,
      ⟨9, 9, 9, 12, 11⟩, ⟨10, 10, 2, 30, 0⟩, ⟨10, 11, 2, 16, 1⟩, ⟨10, 12, 2, 10, 2⟩,
      ⟨11, 11, 5, 16, 3⟩, ⟨11, 12, 5, 10, 4⟩, ⟨11, 13, 5, 11, 5⟩, ⟨12, 12, 0, 10, 6⟩,
      ⟨12, 13, 0, 11, 7⟩, ⟨12, 14, 0, 12, 8⟩, ⟨13, 13, 8, 11, 9⟩, ⟨13, 14, 8, 12, 10⟩,
      ⟨14, 14, 9, 12, 11⟩, ⟨15, 15, 10, 31, 21⟩, ⟨15, 16, 10, 22, 22⟩, ⟨15, 17, 10, 23, 23⟩,
      ⟨15, 18, 10, 2, 101⟩, ⟨15, 19, 10, 5, 102⟩, ⟨15, 20, 10, 0, 103⟩, ⟨16, 16, 11, 22, 104⟩,
      ⟨16, 17, 11, 23, 27⟩, ⟨16, 19, 11, 5, 105⟩, ⟨16, 20, 11, 0, 106⟩, ⟨17, 17, 12, 23, 107⟩,
      ⟨17, 20, 12, 0, 108⟩, ⟨18, 18, 1, 2, 12⟩, ⟨18, 19, 1, 5, 13⟩, ⟨18, 20, 1, 0, 14⟩,
      ⟨19, 19, 6, 5, 109⟩, ⟨19, 20, 6, 0, 110⟩, ⟨20, 20, 7, 0, 111⟩, ⟨21, 21, 10, 31, 21⟩,
      ⟨21, 22, 10, 22, 22⟩, ⟨21, 23, 10, 23, 23⟩, ⟨21, 24, 10, 2, 101⟩, ⟨21, 25, 10, 5, 102⟩,
      ⟨21, 26, 10, 0, 103⟩, ⟨22, 22, 11, 22, 104⟩, ⟨22, 23, 11, 23, 27⟩, ⟨22, 25, 11, 5, 105⟩,
      ⟨22, 26, 11, 0, 106⟩, ⟨23, 23, 12, 23, 107⟩, ⟨23, 26, 12, 0, 108⟩, ⟨24, 24, 1, 2, 12⟩,
      ⟨24, 25, 1, 5, 13⟩, ⟨24, 26, 1, 0, 14⟩, ⟨25, 25, 6, 5, 109⟩, ⟨25, 26, 6, 0, 110⟩,
      ⟨26, 26, 7, 0, 112⟩, ⟨27, 27, 10, 31, 21⟩, ⟨27, 28, 10, 22, 22⟩, ⟨27, 29, 10, 23, 23⟩,
      ⟨27, 30, 10, 2, 101⟩, ⟨27, 31, 10, 5, 102⟩, ⟨27, 32, 10, 0, 103⟩, ⟨28, 28, 11, 22, 104⟩,
      ⟨28, 29, 11, 23, 27⟩, ⟨28, 31, 11, 5, 105⟩, ⟨28, 32, 11, 0, 106⟩, ⟨29, 29, 12, 23, 107⟩,
      ⟨29, 32, 12, 0, 108⟩, ⟨30, 30, 1, 2, 12⟩, ⟨30, 31, 1, 5, 13⟩, ⟨30, 32, 1, 0, 14⟩,
      ⟨31, 31, 6, 5, 109⟩, ⟨31, 32, 6, 0, 110⟩, ⟨32, 32, 7, 0, 111⟩, ⟨33, 33, 16, 32, 21⟩,
      ⟨33, 34, 16, 31, 46⟩, ⟨33, 35, 16, 22, 113⟩, ⟨33, 38, 16, 17, 101⟩, ⟨33, 39, 16, 2, 114⟩,
      ⟨33, 40, 16, 5, 115⟩, ⟨34, 34, 10, 31, 116⟩, ⟨34, 35, 10, 22, 117⟩, ⟨34, 36, 10, 23, 53⟩,
      ⟨34, 39, 10, 2, 118⟩, ⟨34, 40, 10, 5, 119⟩, ⟨34, 41, 10, 0, 120⟩, ⟨35, 35, 11, 22, 121⟩,
      ⟨35, 36, 11, 23, 122⟩, ⟨35, 37, 11, 24, 123⟩, ⟨35, 40, 11, 5, 124⟩, ⟨35, 41, 11, 0, 125⟩,
      ⟨35, 42, 11, 8, 126⟩, ⟨36, 36, 12, 23, 127⟩, ⟨36, 37, 12, 24, 128⟩, ⟨36, 41, 12, 0, 129⟩,
      ⟨36, 42, 12, 8, 130⟩, ⟨37, 37, 18, 24, 131⟩, ⟨37, 42, 18, 8, 132⟩, ⟨38, 38, 4, 17, 12⟩,
      ⟨38, 39, 4, 2, 33⟩, ⟨38, 40, 4, 5, 133⟩, ⟨39, 39, 1, 2, 134⟩, ⟨39, 40, 1, 5, 135⟩,
      ⟨39, 41, 1, 0, 37⟩, ⟨40, 40, 6, 5, 136⟩, ⟨40, 41, 6, 0, 137⟩, ⟨40, 42, 6, 8, 138⟩,
      ⟨41, 41, 7, 0, 139⟩, ⟨41, 42, 7, 8, 140⟩, ⟨42, 42, 21, 8, 141⟩, ⟨43, 43, 22, 33, 0⟩,
      ⟨43, 44, 22, 34, 87⟩, ⟨43, 45, 22, 28, 88⟩, ⟨43, 46, 22, 16, 142⟩, ⟨43, 47, 22, 10, 143⟩,
      ⟨43, 48, 22, 11, 144⟩, ⟨44, 44, 23, 34, 91⟩, ⟨44, 45, 23, 28, 92⟩, ⟨44, 47, 23, 10, 145⟩,
      ⟨44, 48, 23, 11, 146⟩, ⟨45, 45, 24, 28, 147⟩, ⟨45, 48, 24, 11, 148⟩, ⟨46, 46, 5, 16, 149⟩,
      ⟨46, 47, 5, 10, 150⟩, ⟨46, 48, 5, 11, 151⟩, ⟨46, 49, 5, 4, 152⟩, ⟨46, 50, 5, 1, 153⟩,
      ⟨46, 51, 5, 6, 154⟩, ⟨47, 47, 0, 10, 155⟩, ⟨47, 48, 0, 11, 156⟩, ⟨47, 50, 0, 1, 157⟩,
      ⟨47, 51, 0, 6, 158⟩, ⟨48, 48, 8, 11, 159⟩, ⟨48, 51, 8, 6, 160⟩, ⟨49, 49, 14, 4, 161⟩,
      ⟨49, 50, 14, 1, 162⟩, ⟨49, 51, 14, 6, 163⟩, ⟨50, 50, 15, 1, 164⟩, ⟨50, 51, 15, 6, 165⟩,
      ⟨51, 51, 20, 6, 166⟩, ⟨52, 52, 22, 33, 0⟩, ⟨52, 53, 22, 34, 87⟩, ⟨52, 54, 22, 28, 88⟩,
      ⟨52, 55, 22, 16, 142⟩, ⟨52, 56, 22, 10, 143⟩, ⟨52, 57, 22, 11, 144⟩, ⟨53, 53, 23, 34, 91⟩,
      ⟨53, 54, 23, 28, 92⟩, ⟨53, 56, 23, 10, 145⟩, ⟨53, 57, 23, 11, 146⟩, ⟨54, 54, 24, 28, 147⟩,
      ⟨54, 57, 24, 11, 148⟩, ⟨55, 55, 5, 16, 149⟩, ⟨55, 56, 5, 10, 150⟩, ⟨55, 57, 5, 11, 151⟩,
      ⟨55, 58, 5, 4, 152⟩, ⟨55, 59, 5, 1, 153⟩, ⟨55, 60, 5, 6, 154⟩, ⟨56, 56, 0, 10, 155⟩,
      ⟨56, 57, 0, 11, 156⟩, ⟨56, 59, 0, 1, 157⟩, ⟨56, 60, 0, 6, 158⟩, ⟨57, 57, 8, 11, 159⟩,
      ⟨57, 60, 8, 6, 160⟩, ⟨58, 58, 14, 4, 161⟩, ⟨58, 59, 14, 1, 162⟩, ⟨58, 60, 14, 6, 163⟩,
      ⟨59, 59, 15, 1, 164⟩, ⟨59, 60, 15, 6, 165⟩, ⟨60, 60, 20, 6, 166⟩, ⟨61, 61, 28, 35, 21⟩,
      ⟨61, 62, 28, 22, 167⟩, ⟨62, 62, 11, 22, 168⟩, ⟨62, 63, 11, 5, 169⟩, ⟨63, 63, 6, 5, 97⟩,
      ⟨63, 64, 6, 14, 170⟩, ⟨64, 64, 27, 14, 171⟩]⟩,
    ⟨[.plus 1, .plus 0], [1, 2, 1], some [
      ⟨1, 1, 0, 6, 0⟩, ⟨2, 2, 0, 6, 0⟩, ⟨3, 3, 0, 6, 0⟩, ⟨4, 4, 0, 6, 0⟩, ⟨5, 5, 2, 4, 3⟩,
      ⟨5, 6, 2, 1, 172⟩, ⟨6, 5, 5, 4, 46⟩, ⟨6, 6, 5, 1, 173⟩, ⟨6, 7, 5, 6, 174⟩,
      ⟨7, 6, 0, 1, 175⟩, ⟨7, 7, 0, 6, 176⟩, ⟨7, 8, 0, 7, 177⟩, ⟨8, 7, 8, 6, 178⟩,
      ⟨8, 8, 8, 7, 179⟩, ⟨8, 9, 8, 21, 180⟩, ⟨9, 8, 9, 7, 181⟩, ⟨9, 9, 9, 21, 182⟩,
      ⟨10, 10, 2, 4, 3⟩, ⟨10, 11, 2, 1, 172⟩, ⟨11, 10, 5, 4, 46⟩, ⟨11, 11, 5, 1, 173⟩,
      ⟨11, 12, 5, 6, 174⟩, ⟨12, 11, 0, 1, 175⟩, ⟨12, 12, 0, 6, 176⟩, ⟨12, 13, 0, 7, 177⟩,
      ⟨13, 12, 8, 6, 178⟩, ⟨13, 13, 8, 7, 179⟩, ⟨13, 14, 8, 21, 180⟩, ⟨14, 13, 9, 7, 181⟩,
      ⟨14, 14, 9, 21, 182⟩, ⟨15, 15, 10, 5, 109⟩, ⟨15, 16, 10, 0, 110⟩, ⟨16, 15, 11, 5, 183⟩,
      ⟨16, 16, 11, 0, 184⟩, ⟨16, 17, 11, 8, 185⟩, ⟨17, 16, 12, 0, 186⟩, ⟨17, 17, 12, 8, 187⟩,
      ⟨18, 15, 1, 5, 24⟩, ⟨18, 16, 1, 0, 25⟩, ⟨18, 18, 1, 14, 26⟩, ⟨18, 19, 1, 15, 27⟩,
      ⟨19, 15, 6, 5, 188⟩, ⟨19, 16, 6, 0, 189⟩, ⟨19, 17, 6, 8, 190⟩, ⟨19, 18, 6, 14, 87⟩,
      ⟨19, 19, 6, 15, 191⟩, ⟨19, 20, 6, 20, 192⟩, ⟨20, 16, 7, 0, 193⟩, ⟨20, 17, 7, 8, 194⟩,
      ⟨20, 19, 7, 15, 195⟩, ⟨20, 20, 7, 20, 196⟩, ⟨21, 21, 10, 5, 109⟩, ⟨21, 22, 10, 0, 110⟩,
      ⟨22, 21, 11, 5, 183⟩, ⟨22, 22, 11, 0, 184⟩, ⟨22, 23, 11, 8, 185⟩, ⟨23, 22, 12, 0, 197⟩,
      ⟨23, 23, 12, 8, 187⟩, ⟨24, 21, 1, 5, 24⟩, ⟨24, 22, 1, 0, 25⟩, ⟨24, 24, 1, 14, 26⟩,
      ⟨24, 25, 1, 15, 27⟩, ⟨25, 21, 6, 5, 188⟩, ⟨25, 22, 6, 0, 189⟩, ⟨25, 23, 6, 8, 190⟩,
      ⟨25, 24, 6, 14, 87⟩, ⟨25, 25, 6, 15, 198⟩, ⟨25, 26, 6, 20, 192⟩, ⟨26, 22, 7, 0, 193⟩,
      ⟨26, 23, 7, 8, 194⟩, ⟨26, 25, 7, 15, 199⟩, ⟨26, 26, 7, 20, 200⟩, ⟨27, 27, 10, 5, 109⟩,
      ⟨27, 28, 10, 0, 110⟩, ⟨28, 27, 11, 5, 183⟩, ⟨28, 28, 11, 0, 184⟩, ⟨28, 29, 11, 8, 185⟩,
      ⟨29, 28, 12, 0, 186⟩, ⟨29, 29, 12, 8, 187⟩, ⟨30, 27, 1, 5, 24⟩, ⟨30, 28, 1, 0, 25⟩,
      ⟨30, 30, 1, 14, 26⟩, ⟨30, 31, 1, 15, 27⟩, ⟨31, 27, 6, 5, 188⟩, ⟨31, 28, 6, 0, 189⟩,
      ⟨31, 29, 6, 8, 190⟩, ⟨31, 30, 6, 14, 87⟩, ⟨31, 31, 6, 15, 191⟩, ⟨31, 32, 6, 20, 192⟩,
      ⟨32, 28, 7, 0, 193⟩, ⟨32, 29, 7, 8, 194⟩, ⟨32, 31, 7, 15, 195⟩, ⟨32, 32, 7, 20, 196⟩,
      ⟨33, 33, 16, 2, 201⟩, ⟨33, 34, 16, 5, 202⟩, ⟨34, 33, 10, 2, 203⟩, ⟨34, 34, 10, 5, 204⟩,
      ⟨34, 35, 10, 0, 205⟩, ⟨35, 34, 11, 5, 206⟩, ⟨35, 35, 11, 0, 207⟩, ⟨35, 36, 11, 8, 208⟩,
      ⟨36, 35, 12, 0, 209⟩, ⟨36, 36, 12, 8, 210⟩, ⟨36, 37, 12, 9, 211⟩, ⟨37, 36, 18, 8, 212⟩,
      ⟨37, 37, 18, 9, 213⟩, ⟨38, 33, 4, 2, 214⟩, ⟨38, 34, 4, 5, 215⟩, ⟨38, 38, 4, 13, 116⟩,
      ⟨38, 39, 4, 14, 216⟩, ⟨39, 33, 1, 2, 114⟩, ⟨39, 34, 1, 5, 217⟩, ⟨39, 35, 1, 0, 218⟩,
      ⟨39, 38, 1, 13, 1⟩, ⟨39, 39, 1, 14, 219⟩, ⟨39, 40, 1, 15, 220⟩, ⟨40, 34, 6, 5, 221⟩,
      ⟨40, 35, 6, 0, 222⟩, ⟨40, 36, 6, 8, 223⟩, ⟨40, 39, 6, 14, 224⟩, ⟨40, 40, 6, 15, 225⟩,
      ⟨40, 41, 6, 20, 226⟩, ⟨41, 35, 7, 0, 227⟩, ⟨41, 36, 7, 8, 228⟩, ⟨41, 37, 7, 9, 229⟩,
      ⟨41, 40, 7, 15, 230⟩, ⟨41, 41, 7, 20, 231⟩, ⟨41, 42, 7, 36, 232⟩, ⟨42, 36, 21, 8, 233⟩,
      ⟨42, 37, 21, 9, 234⟩, ⟨42, 41, 21, 20, 235⟩, ⟨42, 42, 21, 36, 236⟩, ⟨43, 43, 22, 10, 237⟩,
      ⟨43, 44, 22, 11, 238⟩, ⟨44, 43, 23, 10, 239⟩, ⟨44, 44, 23, 11, 240⟩, ⟨44, 45, 23, 12, 241⟩,
      ⟨45, 44, 24, 11, 242⟩, ⟨45, 45, 24, 12, 243⟩, ⟨46, 43, 5, 10, 244⟩, ⟨46, 44, 5, 11, 245⟩,
      ⟨46, 46, 5, 1, 246⟩, ⟨46, 47, 5, 6, 247⟩, ⟨47, 43, 0, 10, 143⟩, ⟨47, 44, 0, 11, 248⟩,
      ⟨47, 45, 0, 12, 249⟩, ⟨47, 46, 0, 1, 250⟩, ⟨47, 47, 0, 6, 251⟩, ⟨47, 48, 0, 7, 252⟩,
      ⟨48, 44, 8, 11, 253⟩, ⟨48, 45, 8, 12, 254⟩, ⟨48, 47, 8, 6, 255⟩, ⟨48, 48, 8, 7, 256⟩,
      ⟨49, 46, 14, 1, 257⟩, ⟨49, 47, 14, 6, 90⟩, ⟨49, 49, 14, 26, 91⟩, ⟨49, 50, 14, 27, 92⟩,
      ⟨50, 46, 15, 1, 153⟩, ⟨50, 47, 15, 6, 258⟩, ⟨50, 48, 15, 7, 259⟩, ⟨50, 49, 15, 26, 22⟩,
      ⟨50, 50, 15, 27, 260⟩, ⟨50, 51, 15, 37, 261⟩, ⟨51, 47, 20, 6, 262⟩, ⟨51, 48, 20, 7, 263⟩,
      ⟨51, 50, 20, 27, 264⟩, ⟨51, 51, 20, 37, 265⟩, ⟨52, 52, 22, 10, 237⟩, ⟨52, 53, 22, 11, 238⟩,
      ⟨53, 52, 23, 10, 239⟩, ⟨53, 53, 23, 11, 240⟩, ⟨53, 54, 23, 12, 241⟩, ⟨54, 53, 24, 11, 242⟩,
      ⟨54, 54, 24, 12, 243⟩, ⟨55, 52, 5, 10, 244⟩, ⟨55, 53, 5, 11, 245⟩, ⟨55, 55, 5, 1, 246⟩,
      ⟨55, 56, 5, 6, 247⟩, ⟨56, 52, 0, 10, 143⟩, ⟨56, 53, 0, 11, 248⟩, ⟨56, 54, 0, 12, 249⟩,
      ⟨56, 55, 0, 1, 250⟩, ⟨56, 56, 0, 6, 251⟩, ⟨56, 57, 0, 7, 252⟩, ⟨57, 53, 8, 11, 253⟩,
      ⟨57, 54, 8, 12, 254⟩, ⟨57, 56, 8, 6, 255⟩, ⟨57, 57, 8, 7, 256⟩, ⟨58, 55, 14, 1, 257⟩,
      ⟨58, 56, 14, 6, 90⟩, ⟨58, 58, 14, 26, 91⟩, ⟨58, 59, 14, 27, 92⟩, ⟨59, 55, 15, 1, 153⟩,
      ⟨59, 56, 15, 6, 258⟩, ⟨59, 57, 15, 7, 259⟩, ⟨59, 58, 15, 26, 22⟩, ⟨59, 59, 15, 27, 260⟩,
      ⟨59, 60, 15, 37, 261⟩, ⟨60, 56, 20, 6, 262⟩, ⟨60, 57, 20, 7, 263⟩, ⟨60, 59, 20, 27, 264⟩,
      ⟨60, 60, 20, 37, 265⟩, ⟨61, 61, 28, 23, 95⟩, ⟨62, 61, 11, 23, 96⟩, ⟨62, 62, 11, 0, 97⟩,
      ⟨63, 62, 6, 0, 98⟩, ⟨63, 63, 6, 15, 99⟩, ⟨64, 63, 27, 15, 100⟩, ⟨64, 64, 27, 38, 21⟩]⟩,
    ⟨[.plus (-1), .plus 0], [1, 2, 1], some [
      ⟨1, 1, 0, 11, 0⟩, ⟨2, 2, 0, 11, 0⟩, ⟨3, 3, 0, 11, 0⟩, ⟨4, 4, 0, 11, 0⟩, ⟨5, 5, 2, 16, 3⟩,
      ⟨5, 6, 2, 10, 172⟩, ⟨6, 5, 5, 16, 46⟩, ⟨6, 6, 5, 10, 173⟩, ⟨6, 7, 5, 11, 174⟩,
      ⟨7, 6, 0, 10, 175⟩, ⟨7, 7, 0, 11, 176⟩, ⟨7, 8, 0, 12, 177⟩, ⟨8, 7, 8, 11, 178⟩,
      ⟨8, 8, 8, 12, 179⟩, ⟨8, 9, 8, 18, 180⟩, ⟨9, 8, 9, 12, 181⟩, ⟨9, 9, 9, 18, 182⟩,
      ⟨10, 10, 2, 16, 3⟩, ⟨10, 11, 2, 10, 172⟩, ⟨11, 10, 5, 16, 46⟩, ⟨11, 11, 5, 10, 173⟩,
      ⟨11, 12, 5, 11, 174⟩, ⟨12, 11, 0, 10, 175⟩, ⟨12, 12, 0, 11, 176⟩, ⟨12, 13, 0, 12, 177⟩,
      ⟨13, 12, 8, 11, 178⟩, ⟨13, 13, 8, 12, 179⟩, ⟨13, 14, 8, 18, 180⟩, ⟨14, 13, 9, 12, 181⟩,
      ⟨14, 14, 9, 18, 182⟩, ⟨15, 15, 10, 22, 26⟩, ⟨15, 16, 10, 23, 27⟩, ⟨15, 18, 10, 5, 105⟩,
      ⟨15, 19, 10, 0, 106⟩, ⟨16, 15, 11, 22, 87⟩, ⟨16, 16, 11, 23, 198⟩, ⟨16, 17, 11, 24, 192⟩,
      ⟨16, 18, 11, 5, 19⟩, ⟨16, 19, 11, 0, 266⟩, ⟨16, 20, 11, 8, 267⟩, ⟨17, 16, 12, 23, 268⟩,
      ⟨17, 17, 12, 24, 269⟩, ⟨17, 19, 12, 0, 270⟩, ⟨17, 20, 12, 8, 271⟩, ⟨18, 18, 1, 5, 109⟩,
      ⟨18, 19, 1, 0, 110⟩, ⟨19, 18, 6, 5, 272⟩, ⟨19, 19, 6, 0, 184⟩, ⟨19, 20, 6, 8, 273⟩,
      ⟨20, 19, 7, 0, 274⟩, ⟨20, 20, 7, 8, 275⟩, ⟨21, 21, 10, 22, 26⟩, ⟨21, 22, 10, 23, 27⟩,
      ⟨21, 24, 10, 5, 105⟩, ⟨21, 25, 10, 0, 106⟩, ⟨22, 21, 11, 22, 87⟩, ⟨22, 22, 11, 23, 198⟩,
      ⟨22, 23, 11, 24, 192⟩, ⟨22, 24, 11, 5, 19⟩, ⟨22, 25, 11, 0, 266⟩, ⟨22, 26, 11, 8, 267⟩,
      ⟨23, 22, 12, 23, 268⟩, ⟨23, 23, 12, 24, 276⟩, ⟨23, 25, 12, 0, 270⟩, ⟨23, 26, 12, 8, 271⟩,
      ⟨24, 24, 1, 5, 109⟩, ⟨24, 25, 1, 0, 110⟩, ⟨25, 24, 6, 5, 272⟩, ⟨25, 25, 6, 0, 184⟩,
      ⟨25, 26, 6, 8, 273⟩, ⟨26, 25, 7, 0, 274⟩, ⟨26, 26, 7, 8, 277⟩, ⟨27, 27, 10, 22, 26⟩,
      ⟨27, 28, 10, 23, 27⟩, ⟨27, 30, 10, 5, 105⟩, ⟨27, 31, 10, 0, 106⟩, ⟨28, 27, 11, 22, 87⟩,
      ⟨28, 28, 11, 23, 198⟩, ⟨28, 29, 11, 24, 192⟩, ⟨28, 30, 11, 5, 19⟩, ⟨28, 31, 11, 0, 266⟩,
      ⟨28, 32, 11, 8, 267⟩, ⟨29, 28, 12, 23, 268⟩, ⟨29, 29, 12, 24, 269⟩, ⟨29, 31, 12, 0, 270⟩,
      ⟨29, 32, 12, 8, 271⟩, ⟨30, 30, 1, 5, 109⟩, ⟨30, 31, 1, 0, 110⟩, ⟨31, 30, 6, 5, 272⟩,
      ⟨31, 31, 6, 0, 184⟩, ⟨31, 32, 6, 8, 273⟩, ⟨32, 31, 7, 0, 274⟩, ⟨32, 32, 7, 8, 275⟩,
      ⟨33, 33, 16, 31, 116⟩, ⟨33, 34, 16, 22, 216⟩, ⟨33, 38, 16, 2, 278⟩, ⟨33, 39, 16, 5, 279⟩,
      ⟨34, 33, 10, 31, 1⟩, ⟨34, 34, 10, 22, 219⟩, ⟨34, 35, 10, 23, 220⟩, ⟨34, 38, 10, 2, 44⟩,
      ⟨34, 39, 10, 5, 280⟩, ⟨34, 40, 10, 0, 281⟩, ⟨35, 34, 11, 22, 282⟩, ⟨35, 35, 11, 23, 225⟩,
      ⟨35, 36, 11, 24, 283⟩, ⟨35, 39, 11, 5, 284⟩, ⟨35, 40, 11, 0, 285⟩, ⟨35, 41, 11, 8, 286⟩,
      ⟨36, 35, 12, 23, 287⟩, ⟨36, 36, 12, 24, 288⟩, ⟨36, 37, 12, 39, 289⟩, ⟨36, 40, 12, 0, 290⟩,
      ⟨36, 41, 12, 8, 291⟩, ⟨36, 42, 12, 9, 292⟩, ⟨37, 36, 18, 24, 293⟩, ⟨37, 37, 18, 39, 294⟩,
      ⟨37, 41, 18, 8, 295⟩, ⟨37, 42, 18, 9, 296⟩, ⟨38, 38, 4, 2, 297⟩, ⟨38, 39, 4, 5, 298⟩,
      ⟨39, 38, 1, 2, 299⟩, ⟨39, 39, 1, 5, 300⟩, ⟨39, 40, 1, 0, 301⟩, ⟨40, 39, 6, 5, 302⟩,
      ⟨40, 40, 6, 0, 303⟩, ⟨40, 41, 6, 8, 304⟩, ⟨41, 40, 7, 0, 305⟩, ⟨41, 41, 7, 8, 306⟩,
      ⟨41, 42, 7, 9, 307⟩, ⟨42, 41, 21, 8, 308⟩, ⟨42, 42, 21, 9, 309⟩, ⟨43, 43, 22, 34, 91⟩,
      ⟨43, 44, 22, 28, 92⟩, ⟨43, 46, 22, 10, 310⟩, ⟨43, 47, 22, 11, 311⟩, ⟨44, 43, 23, 34, 22⟩,
      ⟨44, 44, 23, 28, 260⟩, ⟨44, 45, 23, 40, 261⟩, ⟨44, 46, 23, 10, 73⟩, ⟨44, 47, 23, 11, 312⟩,
      ⟨44, 48, 23, 12, 313⟩, ⟨45, 44, 24, 28, 264⟩, ⟨45, 45, 24, 40, 314⟩, ⟨45, 47, 24, 11, 315⟩,
      ⟨45, 48, 24, 12, 316⟩, ⟨46, 46, 5, 10, 317⟩, ⟨46, 47, 5, 11, 318⟩, ⟨46, 49, 5, 1, 319⟩,
      ⟨46, 50, 5, 6, 320⟩, ⟨47, 46, 0, 10, 321⟩, ⟨47, 47, 0, 11, 322⟩, ⟨47, 48, 0, 12, 323⟩,
      ⟨47, 49, 0, 1, 85⟩, ⟨47, 50, 0, 6, 324⟩, ⟨47, 51, 0, 7, 325⟩, ⟨48, 47, 8, 11, 326⟩,
      ⟨48, 48, 8, 12, 327⟩, ⟨48, 50, 8, 6, 328⟩, ⟨48, 51, 8, 7, 329⟩, ⟨49, 49, 14, 1, 330⟩,
      ⟨49, 50, 14, 6, 331⟩, ⟨50, 49, 15, 1, 332⟩, ⟨50, 50, 15, 6, 333⟩, ⟨50, 51, 15, 7, 334⟩,
      ⟨51, 50, 20, 6, 335⟩, ⟨51, 51, 20, 7, 336⟩, ⟨52, 52, 22, 34, 91⟩, ⟨52, 53, 22, 28, 92⟩,
      ⟨52, 55, 22, 10, 310⟩, ⟨52, 56, 22, 11, 311⟩, ⟨53, 52, 23, 34, 22⟩, ⟨53, 53, 23, 28, 260⟩,
      ⟨53, 54, 23, 40, 261⟩, ⟨53, 55, 23, 10, 73⟩, ⟨53, 56, 23, 11, 312⟩, ⟨53, 57, 23, 12, 313⟩,
      ⟨54, 53, 24, 28, 264⟩, ⟨54, 54, 24, 40, 314⟩, ⟨54, 56, 24, 11, 315⟩, ⟨54, 57, 24, 12, 316⟩,
      ⟨55, 55, 5, 10, 317⟩, ⟨55, 56, 5, 11, 318⟩, ⟨55, 58, 5, 1, 319⟩, ⟨55, 59, 5, 6, 320⟩,
      ⟨56, 55, 0, 10, 321⟩, ⟨56, 56, 0, 11, 322⟩, ⟨56, 57, 0, 12, 323⟩, ⟨56, 58, 0, 1, 85⟩,
      ⟨56, 59, 0, 6, 324⟩, ⟨56, 60, 0, 7, 325⟩, ⟨57, 56, 8, 11, 326⟩, ⟨57, 57, 8, 12, 327⟩,
      ⟨57, 59, 8, 6, 328⟩, ⟨57, 60, 8, 7, 329⟩, ⟨58, 58, 14, 1, 330⟩, ⟨58, 59, 14, 6, 331⟩,
      ⟨59, 58, 15, 1, 332⟩, ⟨59, 59, 15, 6, 333⟩, ⟨59, 60, 15, 7, 334⟩, ⟨60, 59, 20, 6, 335⟩,
      ⟨60, 60, 20, 7, 336⟩, ⟨61, 61, 28, 41, 21⟩, ⟨61, 62, 28, 23, 167⟩, ⟨62, 62, 11, 23, 168⟩,
      ⟨62, 63, 11, 0, 169⟩, ⟨63, 63, 6, 0, 97⟩, ⟨63, 64, 6, 15, 170⟩, ⟨64, 64, 27, 15, 171⟩]⟩,
    ⟨[.plus 1, .plus 1], [1, 2, 1], some [
      ⟨1, 1, 0, 7, 0⟩, ⟨2, 2, 0, 7, 0⟩, ⟨3, 3, 0, 7, 0⟩, ⟨4, 4, 0, 7, 0⟩, ⟨5, 5, 2, 1, 337⟩,
      ⟨6, 5, 5, 1, 338⟩, ⟨6, 6, 5, 6, 339⟩, ⟨7, 5, 0, 1, 340⟩, ⟨7, 6, 0, 6, 341⟩,
      ⟨7, 7, 0, 7, 342⟩, ⟨8, 6, 8, 6, 343⟩, ⟨8, 7, 8, 7, 344⟩, ⟨8, 8, 8, 21, 345⟩,
      ⟨9, 7, 9, 7, 346⟩, ⟨9, 8, 9, 21, 347⟩, ⟨9, 9, 9, 42, 0⟩, ⟨10, 10, 2, 1, 337⟩,
      ⟨11, 10, 5, 1, 338⟩, ⟨11, 11, 5, 6, 339⟩, ⟨12, 10, 0, 1, 340⟩, ⟨12, 11, 0, 6, 341⟩,
      ⟨12, 12, 0, 7, 342⟩, ⟨13, 11, 8, 6, 343⟩, ⟨13, 12, 8, 7, 344⟩, ⟨13, 13, 8, 21, 345⟩,
      ⟨14, 12, 9, 7, 346⟩, ⟨14, 13, 9, 21, 347⟩, ⟨14, 14, 9, 42, 0⟩, ⟨15, 15, 10, 0, 348⟩,
      ⟨16, 15, 11, 0, 349⟩, ⟨16, 16, 11, 8, 350⟩, ⟨17, 15, 12, 0, 351⟩, ⟨17, 16, 12, 8, 352⟩,
      ⟨17, 17, 12, 9, 12⟩, ⟨18, 15, 1, 0, 31⟩, ⟨18, 18, 1, 15, 353⟩, ⟨19, 15, 6, 0, 193⟩,
      ⟨19, 16, 6, 8, 354⟩, ⟨19, 18, 6, 15, 199⟩, ⟨19, 19, 6, 20, 355⟩, ⟨20, 15, 7, 0, 356⟩,
      ⟨20, 16, 7, 8, 267⟩, ⟨20, 17, 7, 9, 18⟩, ⟨20, 18, 7, 15, 357⟩, ⟨20, 19, 7, 20, 358⟩,
      ⟨20, 20, 7, 36, 359⟩, ⟨21, 21, 10, 0, 348⟩, ⟨22, 21, 11, 0, 349⟩, ⟨22, 22, 11, 8, 350⟩,
      ⟨23, 21, 12, 0, 351⟩, ⟨23, 22, 12, 8, 352⟩, ⟨23, 23, 12, 9, 12⟩, ⟨24, 21, 1, 0, 31⟩,
      ⟨24, 24, 1, 15, 353⟩, ⟨25, 21, 6, 0, 193⟩, ⟨25, 22, 6, 8, 354⟩, ⟨25, 24, 6, 15, 199⟩,
      ⟨25, 25, 6, 20, 360⟩, ⟨26, 21, 7, 0, 356⟩, ⟨26, 22, 7, 8, 267⟩, ⟨26, 23, 7, 9, 18⟩,
      ⟨26, 24, 7, 15, 361⟩, ⟨26, 25, 7, 20, 362⟩, ⟨26, 26, 7, 36, 21⟩, ⟨27, 27, 10, 0, 348⟩,
      ⟨28, 27, 11, 0, 349⟩, ⟨28, 28, 11, 8, 350⟩, ⟨29, 27, 12, 0, 351⟩, ⟨29, 28, 12, 8, 352⟩,
      ⟨29, 29, 12, 9, 12⟩, ⟨30, 27, 1, 0, 31⟩, ⟨30, 30, 1, 15, 353⟩, ⟨31, 27, 6, 0, 193⟩,
      ⟨31, 28, 6, 8, 354⟩, ⟨31, 30, 6, 15, 199⟩, ⟨31, 31, 6, 20, 355⟩, ⟨32, 27, 7, 0, 356⟩,
      ⟨32, 28, 7, 8, 267⟩, ⟨32, 29, 7, 9, 18⟩, ⟨32, 30, 7, 15, 357⟩, ⟨32, 31, 7, 20, 358⟩,
      ⟨32, 32, 7, 36, 359⟩, ⟨33, 33, 16, 5, 363⟩, ⟨34, 33, 10, 5, 364⟩, ⟨34, 34, 10, 0, 365⟩,
      ⟨35, 33, 11, 5, 366⟩, ⟨35, 34, 11, 0, 367⟩, ⟨35, 35, 11, 8, 368⟩, ⟨36, 34, 12, 0, 369⟩,
      ⟨36, 35, 12, 8, 370⟩, ⟨36, 36, 12, 9, 371⟩, ⟨37, 35, 18, 8, 372⟩, ⟨37, 36, 18, 9, 373⟩,
      ⟨37, 37, 18, 43, 374⟩, ⟨38, 33, 4, 5, 375⟩, ⟨38, 38, 4, 14, 376⟩, ⟨39, 33, 1, 5, 377⟩,
      ⟨39, 34, 1, 0, 378⟩, ⟨39, 38, 1, 14, 379⟩, ⟨39, 39, 1, 15, 380⟩, ⟨40, 33, 6, 5, 381⟩,
      ⟨40, 34, 6, 0, 382⟩, ⟨40, 35, 6, 8, 383⟩, ⟨40, 38, 6, 14, 384⟩, ⟨40, 39, 6, 15, 385⟩,
      ⟨40, 40, 6, 20, 386⟩, ⟨41, 34, 7, 0, 387⟩, ⟨41, 35, 7, 8, 388⟩, ⟨41, 36, 7, 9, 389⟩,
      ⟨41, 39, 7, 15, 390⟩, ⟨41, 40, 7, 20, 391⟩, ⟨41, 41, 7, 36, 392⟩, ⟨42, 35, 21, 8, 393⟩,
      ⟨42, 36, 21, 9, 394⟩, ⟨42, 37, 21, 43, 395⟩, ⟨42, 40, 21, 20, 396⟩, ⟨42, 41, 21, 36, 397⟩,
      ⟨42, 42, 21, 44, 398⟩, ⟨43, 43, 22, 11, 399⟩, ⟨44, 43, 23, 11, 400⟩, ⟨44, 44, 23, 12, 401⟩,
      ⟨45, 43, 24, 11, 402⟩, ⟨45, 44, 24, 12, 403⟩, ⟨45, 45, 24, 18, 66⟩, ⟨46, 43, 5, 11, 404⟩,
      ⟨46, 46, 5, 6, 405⟩, ⟨47, 43, 0, 11, 406⟩, ⟨47, 44, 0, 12, 407⟩, ⟨47, 46, 0, 6, 408⟩,
      ⟨47, 47, 0, 7, 409⟩, ⟨48, 43, 8, 11, 410⟩, ⟨48, 44, 8, 12, 411⟩, ⟨48, 45, 8, 18, 72⟩,
      ⟨48, 46, 8, 6, 412⟩, ⟨48, 47, 8, 7, 413⟩, ⟨48, 48, 8, 21, 414⟩, ⟨49, 46, 14, 6, 415⟩,
      ⟨49, 49, 14, 27, 416⟩, ⟨50, 46, 15, 6, 417⟩, ⟨50, 47, 15, 7, 418⟩, ⟨50, 49, 15, 27, 419⟩,
      ⟨50, 50, 15, 37, 265⟩, ⟨51, 46, 20, 6, 420⟩, ⟨51, 47, 20, 7, 421⟩, ⟨51, 48, 20, 21, 422⟩,
      ⟨51, 49, 20, 27, 423⟩, ⟨51, 50, 20, 37, 192⟩, ⟨51, 51, 20, 45, 0⟩, ⟨52, 52, 22, 11, 399⟩,
      ⟨53, 52, 23, 11, 400⟩, ⟨53, 53, 23, 12, 401⟩, ⟨54, 52, 24, 11, 402⟩, ⟨54, 53, 24, 12, 403⟩,
      ⟨54, 54, 24, 18, 66⟩, ⟨55, 52, 5, 11, 404⟩, ⟨55, 55, 5, 6, 405⟩, ⟨56, 52, 0, 11, 406⟩,
      ⟨56, 53, 0, 12, 407⟩, ⟨56, 55, 0, 6, 408⟩, ⟨56, 56, 0, 7, 409⟩, ⟨57, 52, 8, 11, 410⟩,
      ⟨57, 53, 8, 12, 411⟩, ⟨57, 54, 8, 18, 72⟩, ⟨57, 55, 8, 6, 412⟩, ⟨57, 56, 8, 7, 413⟩,
      ⟨57, 57, 8, 21, 414⟩, ⟨58, 55, 14, 6, 415⟩, ⟨58, 58, 14, 27, 416⟩, ⟨59, 55, 15, 6, 417⟩,
      ⟨59, 56, 15, 7, 418⟩, ⟨59, 58, 15, 27, 419⟩, ⟨59, 59, 15, 37, 265⟩, ⟨60, 55, 20, 6, 420⟩,
      ⟨60, 56, 20, 7, 421⟩, ⟨60, 57, 20, 21, 422⟩, ⟨60, 58, 20, 27, 423⟩, ⟨60, 59, 20, 37, 192⟩,
      ⟨60, 60, 20, 45, 0⟩, ⟨61, 61, 28, 24, 95⟩, ⟨62, 61, 11, 24, 96⟩, ⟨62, 62, 11, 8, 97⟩,
      ⟨63, 62, 6, 8, 98⟩, ⟨63, 63, 6, 20, 99⟩, ⟨64, 63, 27, 20, 100⟩, ⟨64, 64, 27, 46, 21⟩]⟩,
    ⟨[.plus (-1), .plus 1], [1, 2, 1], some [
      ⟨1, 1, 0, 12, 0⟩, ⟨2, 2, 0, 12, 0⟩, ⟨3, 3, 0, 12, 0⟩, ⟨4, 4, 0, 12, 0⟩, ⟨5, 5, 2, 10, 337⟩,
      ⟨6, 5, 5, 10, 338⟩, ⟨6, 6, 5, 11, 339⟩, ⟨7, 5, 0, 10, 340⟩, ⟨7, 6, 0, 11, 341⟩,
      ⟨7, 7, 0, 12, 342⟩, ⟨8, 6, 8, 11, 343⟩, ⟨8, 7, 8, 12, 344⟩, ⟨8, 8, 8, 18, 345⟩,
      ⟨9, 7, 9, 12, 346⟩, ⟨9, 8, 9, 18, 347⟩, ⟨9, 9, 9, 47, 0⟩, ⟨10, 10, 2, 10, 337⟩,
      ⟨11, 10, 5, 10, 338⟩, ⟨11, 11, 5, 11, 339⟩, ⟨12, 10, 0, 10, 340⟩, ⟨12, 11, 0, 11, 341⟩,
      ⟨12, 12, 0, 12, 342⟩, ⟨13, 11, 8, 11, 343⟩, ⟨13, 12, 8, 12, 344⟩, ⟨13, 13, 8, 18, 345⟩,
      ⟨14, 12, 9, 12, 346⟩, ⟨14, 13, 9, 18, 347⟩, ⟨14, 14, 9, 47, 0⟩, ⟨15, 15, 10, 23, 353⟩,
      ⟨15, 18, 10, 0, 424⟩, ⟨16, 15, 11, 23, 199⟩, ⟨16, 16, 11, 24, 425⟩, ⟨16, 18, 11, 0, 426⟩,
      ⟨16, 19, 11, 8, 427⟩, ⟨17, 15, 12, 23, 428⟩, ⟨17, 16, 12, 24, 261⟩, ⟨17, 17, 12, 39, 21⟩,
      ⟨17, 18, 12, 0, 429⟩, ⟨17, 19, 12, 8, 190⟩, ⟨17, 20, 12, 9, 101⟩, ⟨18, 18, 1, 0, 348⟩,
      ⟨19, 18, 6, 0, 349⟩, ⟨19, 19, 6, 8, 187⟩, ⟨20, 18, 7, 0, 430⟩, ⟨20, 19, 7, 8, 352⟩,
      ⟨20, 20, 7, 9, 431⟩, ⟨21, 21, 10, 23, 353⟩, ⟨21, 24, 10, 0, 424⟩, ⟨22, 21, 11, 23, 199⟩,
      ⟨22, 22, 11, 24, 425⟩, ⟨22, 24, 11, 0, 426⟩, ⟨22, 25, 11, 8, 427⟩, ⟨23, 21, 12, 23, 428⟩,
      ⟨23, 22, 12, 24, 261⟩, ⟨23, 23, 12, 39, 21⟩, ⟨23, 24, 12, 0, 429⟩, ⟨23, 25, 12, 8, 190⟩,
      ⟨23, 26, 12, 9, 101⟩, ⟨24, 24, 1, 0, 348⟩, ⟨25, 24, 6, 0, 349⟩, ⟨25, 25, 6, 8, 432⟩,
      ⟨26, 24, 7, 0, 430⟩, ⟨26, 25, 7, 8, 433⟩, ⟨26, 26, 7, 9, 431⟩, ⟨27, 27, 10, 23, 353⟩,
      ⟨27, 30, 10, 0, 424⟩, ⟨28, 27, 11, 23, 199⟩, ⟨28, 28, 11, 24, 425⟩, ⟨28, 30, 11, 0, 426⟩,
      ⟨28, 31, 11, 8, 427⟩, ⟨29, 27, 12, 23, 428⟩, ⟨29, 28, 12, 24, 261⟩, ⟨29, 29, 12, 39, 21⟩,
      ⟨29, 30, 12, 0, 429⟩, ⟨29, 31, 12, 8, 190⟩, ⟨29, 32, 12, 9, 101⟩, ⟨30, 30, 1, 0, 348⟩,
      ⟨31, 30, 6, 0, 349⟩, ⟨31, 31, 6, 8, 187⟩, ⟨32, 30, 7, 0, 430⟩, ⟨32, 31, 7, 8, 352⟩,
      ⟨32, 32, 7, 9, 431⟩, ⟨33, 33, 16, 22, 376⟩, ⟨33, 38, 16, 5, 434⟩, ⟨34, 33, 10, 22, 435⟩,
      ⟨34, 34, 10, 23, 436⟩, ⟨34, 38, 10, 5, 437⟩, ⟨34, 39, 10, 0, 438⟩, ⟨35, 33, 11, 22, 439⟩,
      ⟨35, 34, 11, 23, 440⟩, ⟨35, 35, 11, 24, 441⟩, ⟨35, 38, 11, 5, 442⟩, ⟨35, 39, 11, 0, 443⟩,
      ⟨35, 40, 11, 8, 444⟩, ⟨36, 34, 12, 23, 390⟩, ⟨36, 35, 12, 24, 445⟩, ⟨36, 36, 12, 39, 446⟩,
      ⟨36, 39, 12, 0, 447⟩, ⟨36, 40, 12, 8, 448⟩, ⟨36, 41, 12, 9, 449⟩, ⟨37, 35, 18, 24, 450⟩,
      ⟨37, 36, 18, 39, 451⟩, ⟨37, 37, 18, 48, 21⟩, ⟨37, 40, 18, 8, 452⟩, ⟨37, 41, 18, 9, 453⟩,
      ⟨37, 42, 18, 43, 101⟩, ⟨38, 38, 4, 5, 363⟩, ⟨39, 38, 1, 5, 454⟩, ⟨39, 39, 1, 0, 455⟩,
      ⟨40, 38, 6, 5, 456⟩, ⟨40, 39, 6, 0, 457⟩, ⟨40, 40, 6, 8, 458⟩, ⟨41, 39, 7, 0, 459⟩,
      ⟨41, 40, 7, 8, 460⟩, ⟨41, 41, 7, 9, 461⟩, ⟨42, 40, 21, 8, 462⟩, ⟨42, 41, 21, 9, 463⟩,
      ⟨42, 42, 21, 43, 464⟩, ⟨43, 43, 22, 28, 416⟩, ⟨43, 46, 22, 11, 465⟩, ⟨44, 43, 23, 28, 419⟩,
      ⟨44, 44, 23, 40, 466⟩, ⟨44, 46, 23, 11, 467⟩, ⟨44, 47, 23, 12, 468⟩, ⟨45, 43, 24, 28, 423⟩,
      ⟨45, 44, 24, 40, 192⟩, ⟨45, 45, 24, 49, 0⟩, ⟨45, 46, 24, 11, 469⟩, ⟨45, 47, 24, 12, 470⟩,
      ⟨45, 48, 24, 18, 142⟩, ⟨46, 46, 5, 11, 471⟩, ⟨46, 49, 5, 6, 472⟩, ⟨47, 46, 0, 11, 473⟩,
      ⟨47, 47, 0, 12, 474⟩, ⟨47, 49, 0, 6, 475⟩, ⟨47, 50, 0, 7, 329⟩, ⟨48, 46, 8, 11, 476⟩,
      ⟨48, 47, 8, 12, 477⟩, ⟨48, 48, 8, 18, 478⟩, ⟨48, 49, 8, 6, 479⟩, ⟨48, 50, 8, 7, 480⟩,
      ⟨48, 51, 8, 21, 152⟩, ⟨49, 49, 14, 6, 405⟩, ⟨50, 49, 15, 6, 481⟩, ⟨50, 50, 15, 7, 482⟩,
      ⟨51, 49, 20, 6, 483⟩, ⟨51, 50, 20, 7, 484⟩, ⟨51, 51, 20, 21, 485⟩, ⟨52, 52, 22, 28, 416⟩,
      ⟨52, 55, 22, 11, 465⟩, ⟨53, 52, 23, 28, 419⟩, ⟨53, 53, 23, 40, 466⟩, ⟨53, 55, 23, 11, 467⟩,
      ⟨53, 56, 23, 12, 468⟩, ⟨54, 52, 24, 28, 423⟩, ⟨54, 53, 24, 40, 192⟩, ⟨54, 54, 24, 49, 0⟩,
      ⟨54, 55, 24, 11, 469⟩, ⟨54, 56, 24, 12, 470⟩, ⟨54, 57, 24, 18, 142⟩, ⟨55, 55, 5, 11, 471⟩,
      ⟨55, 58, 5, 6, 472⟩, ⟨56, 55, 0, 11, 473⟩, ⟨56, 56, 0, 12, 474⟩, ⟨56, 58, 0, 6, 475⟩,
      ⟨56, 59, 0, 7, 329⟩, ⟨57, 55, 8, 11, 476⟩, ⟨57, 56, 8, 12, 477⟩, ⟨57, 57, 8, 18, 478⟩,
      ⟨57, 58, 8, 6, 479⟩, ⟨57, 59, 8, 7, 480⟩, ⟨57, 60, 8, 21, 152⟩, ⟨58, 58, 14, 6, 405⟩,
      ⟨59, 58, 15, 6, 481⟩, ⟨59, 59, 15, 7, 482⟩, ⟨60, 58, 20, 6, 483⟩, ⟨60, 59, 20, 7, 484⟩,
      ⟨60, 60, 20, 21, 485⟩, ⟨61, 61, 28, 50, 21⟩, ⟨61, 62, 28, 24, 167⟩, ⟨62, 62, 11, 24, 168⟩,
      ⟨62, 63, 11, 8, 169⟩, ⟨63, 63, 6, 8, 97⟩, ⟨63, 64, 6, 20, 170⟩, ⟨64, 64, 27, 20, 171⟩]⟩]

/-- `recalc_triplet` in `nrg-recalc-SPSU2T.hpp:217-`, 3 channel(s): `spsu2t-triplets.dat`, `spsu2t-tripletp.dat`, `spsu2t-tripletm.dat`. -/
def op_SPSU2T_3ch_triplet : OpTable where
  builtin := ⟨"SPSU2T", 3, fields_SPSU2T, tab_SPSU2T_3ch⟩
  kind := .triplet
  labs := labs_SPSU2T
  targets := [
    ⟨[.plus 0, .plus 0], [3, 0], some [
      ⟨1, 1, 0, 0, 0⟩, ⟨2, 2, 0, 0, 0⟩, ⟨3, 3, 0, 0, 0⟩, ⟨4, 4, 0, 0, 0⟩, ⟨5, 5, 2, 2, 0⟩,
      ⟨6, 6, 5, 5, 0⟩, ⟨7, 7, 0, 0, 0⟩, ⟨8, 8, 8, 8, 0⟩, ⟨9, 9, 9, 9, 0⟩, ⟨10, 10, 2, 2, 0⟩,
      ⟨11, 11, 5, 5, 0⟩, ⟨12, 12, 0, 0, 0⟩, ⟨13, 13, 8, 8, 0⟩, ⟨14, 14, 9, 9, 0⟩,
      ⟨15, 15, 10, 10, 66⟩, ⟨15, 18, 10, 1, 486⟩, ⟨16, 16, 11, 11, 478⟩, ⟨16, 19, 11, 6, 486⟩,
      ⟨17, 17, 12, 12, 478⟩, ⟨17, 20, 12, 7, 486⟩, ⟨18, 15, 1, 10, 72⟩, ⟨18, 18, 1, 1, 487⟩,
      ⟨19, 16, 6, 11, 72⟩, ⟨19, 19, 6, 6, 488⟩, ⟨20, 17, 7, 12, 72⟩, ⟨20, 20, 7, 7, 489⟩,
      ⟨21, 21, 10, 10, 66⟩, ⟨21, 24, 10, 1, 486⟩, ⟨22, 22, 11, 11, 478⟩, ⟨22, 25, 11, 6, 486⟩,
      ⟨23, 23, 12, 12, 478⟩, ⟨23, 26, 12, 7, 486⟩, ⟨24, 21, 1, 10, 72⟩, ⟨24, 24, 1, 1, 487⟩,
      ⟨25, 22, 6, 11, 72⟩, ⟨25, 25, 6, 6, 488⟩, ⟨26, 23, 7, 12, 72⟩, ⟨26, 26, 7, 7, 489⟩,
      ⟨27, 27, 10, 10, 66⟩, ⟨27, 30, 10, 1, 486⟩, ⟨28, 28, 11, 11, 478⟩, ⟨28, 31, 11, 6, 486⟩,
      ⟨29, 29, 12, 12, 478⟩, ⟨29, 32, 12, 7, 486⟩, ⟨30, 27, 1, 10, 72⟩, ⟨30, 30, 1, 1, 487⟩,
      ⟨31, 28, 6, 11, 72⟩, ⟨31, 31, 6, 6, 488⟩, ⟨32, 29, 7, 12, 72⟩, ⟨32, 32, 7, 7, 489⟩,
      ⟨33, 33, 16, 16, 66⟩, ⟨33, 38, 16, 4, 486⟩, ⟨34, 34, 10, 10, 478⟩, ⟨34, 39, 10, 1, 152⟩,
      ⟨35, 35, 11, 11, 478⟩, ⟨35, 40, 11, 6, 486⟩, ⟨36, 36, 12, 12, 490⟩, ⟨36, 41, 12, 7, 152⟩,
      ⟨37, 37, 18, 18, 491⟩, ⟨37, 42, 18, 21, 486⟩, ⟨38, 33, 4, 16, 72⟩, ⟨38, 38, 4, 4, 487⟩,
      ⟨39, 34, 1, 10, 72⟩, ⟨39, 39, 1, 1, 488⟩, ⟨40, 35, 6, 11, 72⟩, ⟨40, 40, 6, 6, 489⟩,
      ⟨41, 36, 7, 12, 72⟩, ⟨41, 41, 7, 7, 492⟩, ⟨42, 37, 21, 18, 493⟩, ⟨42, 42, 21, 21, 489⟩,
      ⟨43, 43, 22, 22, 494⟩, ⟨43, 46, 22, 5, 495⟩, ⟨44, 44, 23, 23, 494⟩, ⟨44, 47, 23, 0, 495⟩,
      ⟨45, 45, 24, 24, 496⟩, ⟨45, 48, 24, 8, 497⟩, ⟨46, 43, 5, 22, 498⟩, ⟨46, 46, 5, 5, 499⟩,
      ⟨46, 49, 5, 14, 500⟩, ⟨47, 44, 0, 23, 498⟩, ⟨47, 47, 0, 0, 499⟩, ⟨47, 50, 0, 15, 500⟩,
      ⟨48, 45, 8, 24, 498⟩, ⟨48, 48, 8, 8, 499⟩, ⟨48, 51, 8, 20, 500⟩, ⟨49, 46, 14, 5, 501⟩,
      ⟨49, 49, 14, 14, 502⟩, ⟨50, 47, 15, 0, 503⟩, ⟨50, 50, 15, 15, 504⟩, ⟨51, 48, 20, 8, 501⟩,
      ⟨51, 51, 20, 20, 504⟩, ⟨52, 52, 22, 22, 494⟩, ⟨52, 55, 22, 5, 495⟩, ⟨53, 53, 23, 23, 494⟩,
      ⟨53, 56, 23, 0, 495⟩, ⟨54, 54, 24, 24, 496⟩, ⟨54, 57, 24, 8, 497⟩, ⟨55, 52, 5, 22, 498⟩,
      ⟨55, 55, 5, 5, 499⟩, ⟨55, 58, 5, 14, 500⟩, ⟨56, 53, 0, 23, 498⟩, ⟨56, 56, 0, 0, 499⟩,
      ⟨56, 59, 0, 15, 500⟩, ⟨57, 54, 8, 24, 498⟩, ⟨57, 57, 8, 8, 499⟩, ⟨57, 60, 8, 20, 500⟩,
      ⟨58, 55, 14, 5, 501⟩, ⟨58, 58, 14, 14, 502⟩, ⟨59, 56, 15, 0, 503⟩, ⟨59, 59, 15, 15, 504⟩,
      ⟨60, 57, 20, 8, 501⟩, ⟨60, 60, 20, 20, 504⟩, ⟨61, 61, 28, 28, 505⟩, ⟨61, 62, 28, 11, 506⟩,
      ⟨62, 61, 11, 28, 507⟩, ⟨62, 62, 11, 11, 508⟩, ⟨62, 63, 11, 6, 509⟩, ⟨63, 62, 6, 11, 510⟩,
      ⟨63, 63, 6, 6, 511⟩, ⟨63, 64, 6, 27, 512⟩, ⟨64, 63, 27, 6, 513⟩, ⟨64, 64, 27, 27, 514⟩]⟩,
    ⟨[.plus 2, .plus 0], [3, 0], some [
      ⟨1, 1, 0, 15, 0⟩, ⟨2, 2, 0, 15, 0⟩, ⟨3, 3, 0, 15, 0⟩, ⟨4, 4, 0, 15, 0⟩, ⟨5, 5, 2, 13, 0⟩,
      ⟨6, 6, 5, 14, 0⟩, ⟨7, 7, 0, 15, 0⟩, ⟨8, 8, 8, 20, 0⟩, ⟨9, 9, 9, 36, 0⟩, ⟨10, 10, 2, 13, 0⟩,
      ⟨11, 11, 5, 14, 0⟩, ⟨12, 12, 0, 15, 0⟩, ⟨13, 13, 8, 20, 0⟩, ⟨14, 14, 9, 36, 0⟩,
      ⟨15, 15, 10, 1, 515⟩, ⟨16, 16, 11, 6, 515⟩, ⟨17, 17, 12, 7, 516⟩, ⟨18, 15, 1, 1, 84⟩,
      ⟨18, 18, 1, 26, 0⟩, ⟨19, 16, 6, 6, 422⟩, ⟨19, 19, 6, 27, 0⟩, ⟨20, 17, 7, 7, 84⟩,
      ⟨20, 20, 7, 37, 0⟩, ⟨21, 21, 10, 1, 515⟩, ⟨22, 22, 11, 6, 515⟩, ⟨23, 23, 12, 7, 516⟩,
      ⟨24, 21, 1, 1, 84⟩, ⟨24, 24, 1, 26, 0⟩, ⟨25, 22, 6, 6, 422⟩, ⟨25, 25, 6, 27, 0⟩,
      ⟨26, 23, 7, 7, 84⟩, ⟨26, 26, 7, 37, 0⟩, ⟨27, 27, 10, 1, 515⟩, ⟨28, 28, 11, 6, 515⟩,
      ⟨29, 29, 12, 7, 516⟩, ⟨30, 27, 1, 1, 84⟩, ⟨30, 30, 1, 26, 0⟩, ⟨31, 28, 6, 6, 422⟩,
      ⟨31, 31, 6, 27, 0⟩, ⟨32, 29, 7, 7, 84⟩, ⟨32, 32, 7, 37, 0⟩, ⟨33, 33, 16, 4, 515⟩,
      ⟨34, 34, 10, 1, 517⟩, ⟨35, 35, 11, 6, 518⟩, ⟨36, 36, 12, 7, 519⟩, ⟨37, 37, 18, 21, 520⟩,
      ⟨38, 33, 4, 4, 84⟩, ⟨38, 38, 4, 25, 0⟩, ⟨39, 34, 1, 1, 422⟩, ⟨39, 39, 1, 26, 0⟩,
      ⟨40, 35, 6, 6, 422⟩, ⟨40, 40, 6, 27, 0⟩, ⟨41, 36, 7, 7, 521⟩, ⟨41, 41, 7, 37, 0⟩,
      ⟨42, 37, 21, 21, 422⟩, ⟨42, 42, 21, 45, 0⟩, ⟨43, 43, 22, 5, 522⟩, ⟨44, 44, 23, 0, 522⟩,
      ⟨45, 45, 24, 8, 523⟩, ⟨46, 43, 5, 5, 524⟩, ⟨46, 46, 5, 14, 525⟩, ⟨47, 44, 0, 0, 524⟩,
      ⟨47, 47, 0, 15, 504⟩, ⟨48, 45, 8, 8, 524⟩, ⟨48, 48, 8, 20, 504⟩, ⟨49, 43, 14, 5, 526⟩,
      ⟨49, 46, 14, 14, 527⟩, ⟨49, 49, 14, 29, 0⟩, ⟨50, 44, 15, 0, 526⟩, ⟨50, 47, 15, 15, 527⟩,
      ⟨50, 50, 15, 38, 0⟩, ⟨51, 45, 20, 8, 526⟩, ⟨51, 48, 20, 20, 527⟩, ⟨51, 51, 20, 46, 0⟩,
      ⟨52, 52, 22, 5, 522⟩, ⟨53, 53, 23, 0, 522⟩, ⟨54, 54, 24, 8, 523⟩, ⟨55, 52, 5, 5, 524⟩,
      ⟨55, 55, 5, 14, 525⟩, ⟨56, 53, 0, 0, 524⟩, ⟨56, 56, 0, 15, 504⟩, ⟨57, 54, 8, 8, 524⟩,
      ⟨57, 57, 8, 20, 504⟩, ⟨58, 52, 14, 5, 526⟩, ⟨58, 55, 14, 14, 527⟩, ⟨58, 58, 14, 29, 0⟩,
      ⟨59, 53, 15, 0, 526⟩, ⟨59, 56, 15, 15, 527⟩, ⟨59, 59, 15, 38, 0⟩, ⟨60, 54, 20, 8, 526⟩,
      ⟨60, 57, 20, 20, 527⟩, ⟨60, 60, 20, 46, 0⟩, ⟨61, 61, 28, 11, 528⟩, ⟨62, 61, 11, 11, 529⟩,
      ⟨62, 62, 11, 6, 530⟩, ⟨63, 61, 6, 11, 531⟩, ⟨63, 62, 6, 6, 532⟩, ⟨63, 63, 6, 27, 533⟩,
      ⟨64, 62, 27, 6, 534⟩, ⟨64, 63, 27, 27, 535⟩, ⟨64, 64, 27, 51, 536⟩]⟩,
    ⟨[.plus (-2), .plus 0], [3, 0], some [
      ⟨1, 1, 0, 23, 0⟩, ⟨2, 2, 0, 23, 0⟩, ⟨3, 3, 0, 23, 0⟩, ⟨4, 4, 0, 23, 0⟩, ⟨5, 5, 2, 31, 0⟩,
      ⟨6, 6, 5, 22, 0⟩, ⟨7, 7, 0, 23, 0⟩, ⟨8, 8, 8, 24, 0⟩, ⟨9, 9, 9, 39, 0⟩, ⟨10, 10, 2, 31, 0⟩,
      ⟨11, 11, 5, 22, 0⟩, ⟨12, 12, 0, 23, 0⟩, ⟨13, 13, 8, 24, 0⟩, ⟨14, 14, 9, 39, 0⟩,
      ⟨15, 15, 10, 34, 0⟩, ⟨15, 18, 10, 10, 142⟩, ⟨16, 16, 11, 28, 0⟩, ⟨16, 19, 11, 11, 142⟩,
      ⟨17, 17, 12, 40, 0⟩, ⟨17, 20, 12, 12, 142⟩, ⟨18, 18, 1, 10, 537⟩, ⟨19, 19, 6, 11, 538⟩,
      ⟨20, 20, 7, 12, 539⟩, ⟨21, 21, 10, 34, 0⟩, ⟨21, 24, 10, 10, 142⟩, ⟨22, 22, 11, 28, 0⟩,
      ⟨22, 25, 11, 11, 142⟩, ⟨23, 23, 12, 40, 0⟩, ⟨23, 26, 12, 12, 142⟩, ⟨24, 24, 1, 10, 537⟩,
      ⟨25, 25, 6, 11, 538⟩, ⟨26, 26, 7, 12, 539⟩, ⟨27, 27, 10, 34, 0⟩, ⟨27, 30, 10, 10, 142⟩,
      ⟨28, 28, 11, 28, 0⟩, ⟨28, 31, 11, 11, 142⟩, ⟨29, 29, 12, 40, 0⟩, ⟨29, 32, 12, 12, 142⟩,
      ⟨30, 30, 1, 10, 537⟩, ⟨31, 31, 6, 11, 538⟩, ⟨32, 32, 7, 12, 539⟩, ⟨33, 33, 16, 33, 0⟩,
      ⟨33, 38, 16, 16, 142⟩, ⟨34, 34, 10, 34, 0⟩, ⟨34, 39, 10, 10, 142⟩, ⟨35, 35, 11, 28, 0⟩,
      ⟨35, 40, 11, 11, 142⟩, ⟨36, 36, 12, 40, 0⟩, ⟨36, 41, 12, 12, 540⟩, ⟨37, 37, 18, 49, 0⟩,
      ⟨37, 42, 18, 18, 541⟩, ⟨38, 38, 4, 16, 537⟩, ⟨39, 39, 1, 10, 542⟩, ⟨40, 40, 6, 11, 543⟩,
      ⟨41, 41, 7, 12, 543⟩, ⟨42, 42, 21, 18, 544⟩, ⟨43, 43, 22, 35, 0⟩, ⟨43, 46, 22, 22, 545⟩,
      ⟨43, 49, 22, 5, 546⟩, ⟨44, 44, 23, 41, 0⟩, ⟨44, 47, 23, 23, 545⟩, ⟨44, 50, 23, 0, 546⟩,
      ⟨45, 45, 24, 50, 0⟩, ⟨45, 48, 24, 24, 545⟩, ⟨45, 51, 24, 8, 546⟩, ⟨46, 46, 5, 22, 494⟩,
      ⟨46, 49, 5, 5, 495⟩, ⟨47, 47, 0, 23, 494⟩, ⟨47, 50, 0, 0, 495⟩, ⟨48, 48, 8, 24, 494⟩,
      ⟨48, 51, 8, 8, 495⟩, ⟨49, 49, 14, 5, 547⟩, ⟨50, 50, 15, 0, 548⟩, ⟨51, 51, 20, 8, 548⟩,
      ⟨52, 52, 22, 35, 0⟩, ⟨52, 55, 22, 22, 545⟩, ⟨52, 58, 22, 5, 546⟩, ⟨53, 53, 23, 41, 0⟩,
      ⟨53, 56, 23, 23, 545⟩, ⟨53, 59, 23, 0, 546⟩, ⟨54, 54, 24, 50, 0⟩, ⟨54, 57, 24, 24, 545⟩,
      ⟨54, 60, 24, 8, 546⟩, ⟨55, 55, 5, 22, 494⟩, ⟨55, 58, 5, 5, 495⟩, ⟨56, 56, 0, 23, 494⟩,
      ⟨56, 59, 0, 0, 495⟩, ⟨57, 57, 8, 24, 494⟩, ⟨57, 60, 8, 8, 495⟩, ⟨58, 58, 14, 5, 547⟩,
      ⟨59, 59, 15, 0, 548⟩, ⟨60, 60, 20, 8, 548⟩, ⟨61, 61, 28, 52, 0⟩, ⟨61, 62, 28, 28, 549⟩,
      ⟨61, 63, 28, 11, 550⟩, ⟨62, 62, 11, 28, 505⟩, ⟨62, 63, 11, 11, 551⟩, ⟨62, 64, 11, 6, 531⟩,
      ⟨63, 63, 6, 11, 552⟩, ⟨63, 64, 6, 6, 553⟩, ⟨64, 64, 27, 6, 554⟩]⟩]

end Verif.Oper
