import Verif.Invar.Model
/-!
# Tables of the built-in symmetries (generated)

Generated by `scripts/gen_tables.py` from `c++/symmetry/coefnew/*/*-In2.dat` and
`*-QN.dat`.  Row `k` (0-based) is `(In[k+1], QN[k+1])` of the C++ text; the shift
is `Symmetry::erase_first`, `c++/symmetry.hpp:74-77`.
-/

namespace Verif.Symm
open Verif.Invar (Label)

/-- `c++/symmetry/coefnew/dblisosz/dblisosz-2ch-In2.dat:1-16`, `dblisosz/dblisosz-2ch-QN.dat:1-16`. -/
def tab_DBLISOSZ_2ch : List (Label × Label) := [
  ([0, 0, 2], [1, 1, -2]), ([0, 0, 0], [1, 1, 0]), ([0, 0, 0], [1, 1, 0]), ([0, 0, -2], [1, 1, 2]),
  ([0, -1, 1], [1, 2, -1]), ([0, 1, 1], [1, 2, -1]), ([0, -1, -1], [1, 2, 1]),
  ([0, 1, -1], [1, 2, 1]), ([-1, 0, 1], [2, 1, -1]), ([1, 0, 1], [2, 1, -1]),
  ([-1, 0, -1], [2, 1, 1]), ([1, 0, -1], [2, 1, 1]), ([-1, -1, 0], [2, 2, 0]),
  ([-1, 1, 0], [2, 2, 0]), ([1, -1, 0], [2, 2, 0]), ([1, 1, 0], [2, 2, 0])]

/-- `c++/symmetry/coefnew/dblqsz/dblqsz-2ch-In2.dat:1-16`, `dblqsz/dblqsz-2ch-QN.dat:1-16`. -/
def tab_DBLQSZ_2ch : List (Label × Label) := [
  ([1, 1, 0], [-1, -1, 0]), ([1, 0, 1], [-1, 0, -1]), ([1, 0, -1], [-1, 0, 1]),
  ([1, -1, 0], [-1, 1, 0]), ([0, 1, 1], [0, -1, -1]), ([0, 1, -1], [0, -1, 1]),
  ([0, 0, 2], [0, 0, -2]), ([0, 0, 0], [0, 0, 0]), ([0, 0, 0], [0, 0, 0]), ([0, 0, -2], [0, 0, 2]),
  ([0, -1, 1], [0, 1, -1]), ([0, -1, -1], [0, 1, 1]), ([-1, 1, 0], [1, -1, 0]),
  ([-1, 0, 1], [1, 0, -1]), ([-1, 0, -1], [1, 0, 1]), ([-1, -1, 0], [1, 1, 0])]

/-- `c++/symmetry/coefnew/dblsu2/dblsu2-2ch-In2.dat:1-16`, `dblsu2/dblsu2-2ch-QN.dat:1-16`. -/
def tab_DBLSU2_2ch : List (Label × Label) := [
  ([0, 0], [1, 1]), ([0, 0], [1, 1]), ([0, 0], [1, 1]), ([0, 0], [1, 1]), ([0, -1], [1, 2]),
  ([0, 1], [1, 2]), ([0, -1], [1, 2]), ([0, 1], [1, 2]), ([-1, 0], [2, 1]), ([1, 0], [2, 1]),
  ([-1, 0], [2, 1]), ([1, 0], [2, 1]), ([-1, -1], [2, 2]), ([-1, 1], [2, 2]), ([1, -1], [2, 2]),
  ([1, 1], [2, 2])]

/-- `c++/symmetry/coefnew/iso/iso-1ch-In2.dat:1-4`, `iso/iso-1ch-QN.dat:1-4`. -/
def tab_ISO_1ch : List (Label × Label) := [
  ([-1, 0], [2, 1]), ([1, 0], [2, 1]), ([0, -1], [1, 2]), ([0, 1], [1, 2])]

/-- `c++/symmetry/coefnew/iso/iso-2ch-In2.dat:1-16`, `iso/iso-2ch-QN.dat:1-16`. -/
def tab_ISO_2ch : List (Label × Label) := [
  ([-2, 0], [3, 1]), ([0, 0], [3, 1]), ([2, 0], [3, 1]), ([-1, -1], [2, 2]), ([1, -1], [2, 2]),
  ([-1, 1], [2, 2]), ([1, 1], [2, 2]), ([-1, -1], [2, 2]), ([1, -1], [2, 2]), ([-1, 1], [2, 2]),
  ([1, 1], [2, 2]), ([0, -2], [1, 3]), ([0, 0], [1, 3]), ([0, 2], [1, 3]), ([0, 0], [1, 1]),
  ([0, 0], [1, 1])]

/-- `c++/symmetry/coefnew/iso/iso-3ch-In2.dat:1-64`, `iso/iso-3ch-QN.dat:1-64`. -/
def tab_ISO_3ch : List (Label × Label) := [
  ([-3, 0], [4, 1]), ([-1, 0], [4, 1]), ([1, 0], [4, 1]), ([3, 0], [4, 1]), ([-2, -1], [3, 2]),
  ([0, -1], [3, 2]), ([2, -1], [3, 2]), ([-2, 1], [3, 2]), ([0, 1], [3, 2]), ([2, 1], [3, 2]),
  ([-2, -1], [3, 2]), ([0, -1], [3, 2]), ([2, -1], [3, 2]), ([-2, 1], [3, 2]), ([0, 1], [3, 2]),
  ([2, 1], [3, 2]), ([-2, -1], [3, 2]), ([0, -1], [3, 2]), ([2, -1], [3, 2]), ([-2, 1], [3, 2]),
  ([0, 1], [3, 2]), ([2, 1], [3, 2]), ([-1, -2], [2, 3]), ([1, -2], [2, 3]), ([-1, 0], [2, 3]),
  ([1, 0], [2, 3]), ([-1, 2], [2, 3]), ([1, 2], [2, 3]), ([-1, -2], [2, 3]), ([1, -2], [2, 3]),
  ([-1, 0], [2, 3]), ([1, 0], [2, 3]), ([-1, 2], [2, 3]), ([1, 2], [2, 3]), ([-1, -2], [2, 3]),
  ([1, -2], [2, 3]), ([-1, 0], [2, 3]), ([1, 0], [2, 3]), ([-1, 2], [2, 3]), ([1, 2], [2, 3]),
  ([-1, 0], [2, 1]), ([1, 0], [2, 1]), ([-1, 0], [2, 1]), ([1, 0], [2, 1]), ([-1, 0], [2, 1]),
  ([1, 0], [2, 1]), ([-1, 0], [2, 1]), ([1, 0], [2, 1]), ([-1, 0], [2, 1]), ([1, 0], [2, 1]),
  ([0, -3], [1, 4]), ([0, -1], [1, 4]), ([0, 1], [1, 4]), ([0, 3], [1, 4]), ([0, -1], [1, 2]),
  ([0, 1], [1, 2]), ([0, -1], [1, 2]), ([0, 1], [1, 2]), ([0, -1], [1, 2]), ([0, 1], [1, 2]),
  ([0, -1], [1, 2]), ([0, 1], [1, 2]), ([0, -1], [1, 2]), ([0, 1], [1, 2])]

/-- `c++/symmetry/coefnew/iso2/iso2-1ch-In2.dat:1-4`, `iso2/iso2-1ch-QN.dat:1-4`. -/
def tab_ISO2_1ch : List (Label × Label) := [
  ([-1, 0], [2, 1]), ([1, 0], [2, 1]), ([0, -1], [1, 2]), ([0, 1], [1, 2])]

/-- `c++/symmetry/coefnew/iso2/iso2-2ch-In2.dat:1-16`, `iso2/iso2-2ch-QN.dat:1-16`. -/
def tab_ISO2_2ch : List (Label × Label) := [
  ([-2, 0], [3, 1]), ([0, 0], [3, 1]), ([2, 0], [3, 1]), ([-1, -1], [2, 2]), ([1, -1], [2, 2]),
  ([-1, 1], [2, 2]), ([1, 1], [2, 2]), ([-1, -1], [2, 2]), ([1, -1], [2, 2]), ([-1, 1], [2, 2]),
  ([1, 1], [2, 2]), ([0, -2], [1, 3]), ([0, 0], [1, 3]), ([0, 2], [1, 3]), ([0, 0], [1, 1]),
  ([0, 0], [1, 1])]

/-- `c++/symmetry/coefnew/isolr/isolr-2ch-In2.dat:1-16`, `isolr/isolr-2ch-QN.dat:1-16`. -/
def tab_ISOLR_2ch : List (Label × Label) := [
  ([0, 0, -1], [1, 1, -1]), ([0, 0, 1], [1, 1, 1]), ([0, -2, -1], [1, 3, -1]),
  ([0, 0, -1], [1, 3, -1]), ([0, 2, -1], [1, 3, -1]), ([-1, -1, -1], [2, 2, -1]),
  ([1, -1, -1], [2, 2, -1]), ([-1, 1, -1], [2, 2, -1]), ([1, 1, -1], [2, 2, -1]),
  ([-1, -1, 1], [2, 2, 1]), ([1, -1, 1], [2, 2, 1]), ([-1, 1, 1], [2, 2, 1]),
  ([1, 1, 1], [2, 2, 1]), ([-2, 0, 1], [3, 1, 1]), ([0, 0, 1], [3, 1, 1]), ([2, 0, 1], [3, 1, 1])]

/-- `c++/symmetry/coefnew/iso2lr/iso2lr-2ch-In2.dat:1-16`, `iso2lr/iso2lr-2ch-QN.dat:1-16`. -/
def tab_ISO2LR_2ch : List (Label × Label) := [
  ([0, 0, 1], [1, 1, 1]), ([0, 0, 1], [1, 1, 1]), ([0, -2, -1], [1, 3, -1]),
  ([0, 0, -1], [1, 3, -1]), ([0, 2, -1], [1, 3, -1]), ([-1, -1, -1], [2, 2, -1]),
  ([1, -1, -1], [2, 2, -1]), ([-1, 1, -1], [2, 2, -1]), ([1, 1, -1], [2, 2, -1]),
  ([-1, -1, 1], [2, 2, 1]), ([1, -1, 1], [2, 2, 1]), ([-1, 1, 1], [2, 2, 1]),
  ([1, 1, 1], [2, 2, 1]), ([-2, 0, 1], [3, 1, 1]), ([0, 0, 1], [3, 1, 1]), ([2, 0, 1], [3, 1, 1])]

/-- `c++/symmetry/coefnew/isosz/isosz-1ch-In2.dat:1-4`, `isosz/isosz-1ch-QN.dat:1-4`. -/
def tab_ISOSZ_1ch : List (Label × Label) := [
  ([-1, 0], [2, 0]), ([1, 0], [2, 0]), ([0, -1], [1, 1]), ([0, 1], [1, -1])]

/-- `c++/symmetry/coefnew/isosz/isosz-2ch-In2.dat:1-16`, `isosz/isosz-2ch-QN.dat:1-16`. -/
def tab_ISOSZ_2ch : List (Label × Label) := [
  ([-2, 0], [3, 0]), ([0, 0], [3, 0]), ([2, 0], [3, 0]), ([-1, -1], [2, 1]), ([1, -1], [2, 1]),
  ([-1, -1], [2, 1]), ([1, -1], [2, 1]), ([-1, 1], [2, -1]), ([1, 1], [2, -1]), ([-1, 1], [2, -1]),
  ([1, 1], [2, -1]), ([0, -2], [1, 2]), ([0, 0], [1, 0]), ([0, 0], [1, 0]), ([0, 0], [1, 0]),
  ([0, 2], [1, -2])]

/-- `c++/symmetry/coefnew/isoszlr/isoszlr-2ch-In2.dat:1-16`, `isoszlr/isoszlr-2ch-QN.dat:1-16`. -/
def tab_ISOSZLR_2ch : List (Label × Label) := [
  ([0, 2, -1], [1, -2, -1]), ([0, 0, -1], [1, 0, -1]), ([0, 0, -1], [1, 0, -1]),
  ([0, 0, 1], [1, 0, 1]), ([0, -2, -1], [1, 2, -1]), ([-1, 1, -1], [2, -1, -1]),
  ([1, 1, -1], [2, -1, -1]), ([-1, 1, 1], [2, -1, 1]), ([1, 1, 1], [2, -1, 1]),
  ([-1, -1, -1], [2, 1, -1]), ([1, -1, -1], [2, 1, -1]), ([-1, -1, 1], [2, 1, 1]),
  ([1, -1, 1], [2, 1, 1]), ([-2, 0, 1], [3, 0, 1]), ([0, 0, 1], [3, 0, 1]), ([2, 0, 1], [3, 0, 1])]

/-- `c++/symmetry/coefnew/none/none-1ch-In2.dat:1-4`, `none/none-1ch-QN.dat:1-4`. -/
def tab_NONE_1ch : List (Label × Label) := [
  ([0], [0]), ([0], [0]), ([0], [0]), ([0], [0])]

/-- `c++/symmetry/coefnew/none/none-2ch-In2.dat:1-16`, `none/none-2ch-QN.dat:1-16`. -/
def tab_NONE_2ch : List (Label × Label) := [
  ([0], [0]), ([0], [0]), ([0], [0]), ([0], [0]), ([0], [0]), ([0], [0]), ([0], [0]), ([0], [0]),
  ([0], [0]), ([0], [0]), ([0], [0]), ([0], [0]), ([0], [0]), ([0], [0]), ([0], [0]), ([0], [0])]

/-- `c++/symmetry/coefnew/p/p-1ch-In2.dat:1-4`, `p/p-1ch-QN.dat:1-4`. -/
def tab_P_1ch : List (Label × Label) := [
  ([-1], [-1]), ([-1], [-1]), ([1], [1]), ([1], [1])]

/-- `c++/symmetry/coefnew/p/p-2ch-In2.dat:1-16`, `p/p-2ch-QN.dat:1-16`. -/
def tab_P_2ch : List (Label × Label) := [
  ([-1], [-1]), ([-1], [-1]), ([-1], [-1]), ([-1], [-1]), ([-1], [-1]), ([-1], [-1]), ([-1], [-1]),
  ([-1], [-1]), ([1], [1]), ([1], [1]), ([1], [1]), ([1], [1]), ([1], [1]), ([1], [1]), ([1], [1]),
  ([1], [1])]

/-- `c++/symmetry/coefnew/pp/pp-2ch-In2.dat:1-16`, `pp/pp-2ch-QN.dat:1-16`. -/
def tab_PP_2ch : List (Label × Label) := [
  ([-1, -1], [-1, -1]), ([-1, -1], [-1, -1]), ([-1, -1], [-1, -1]), ([-1, -1], [-1, -1]),
  ([-1, 1], [-1, 1]), ([-1, 1], [-1, 1]), ([-1, 1], [-1, 1]), ([-1, 1], [-1, 1]),
  ([1, -1], [1, -1]), ([1, -1], [1, -1]), ([1, -1], [1, -1]), ([1, -1], [1, -1]), ([1, 1], [1, 1]),
  ([1, 1], [1, 1]), ([1, 1], [1, 1]), ([1, 1], [1, 1])]

/-- `c++/symmetry/coefnew/qj/qj-In2.dat:1-64`, `qj/qj-QN.dat:1-64`. -/
def tab_QJ_3ch : List (Label × Label) := [
  ([3, 0], [-3, 1]), ([2, -1], [-2, 2]), ([2, 1], [-2, 2]), ([2, -3], [-2, 4]), ([2, -1], [-2, 4]),
  ([2, 1], [-2, 4]), ([2, 3], [-2, 4]), ([1, 0], [-1, 1]), ([1, 0], [-1, 1]), ([1, -2], [-1, 3]),
  ([1, 0], [-1, 3]), ([1, 2], [-1, 3]), ([1, -4], [-1, 5]), ([1, -2], [-1, 5]), ([1, 0], [-1, 5]),
  ([1, 2], [-1, 5]), ([1, 4], [-1, 5]), ([1, -4], [-1, 5]), ([1, -2], [-1, 5]), ([1, 0], [-1, 5]),
  ([1, 2], [-1, 5]), ([1, 4], [-1, 5]), ([0, -1], [0, 2]), ([0, 1], [0, 2]), ([0, -3], [0, 4]),
  ([0, -1], [0, 4]), ([0, 1], [0, 4]), ([0, 3], [0, 4]), ([0, -3], [0, 4]), ([0, -1], [0, 4]),
  ([0, 1], [0, 4]), ([0, 3], [0, 4]), ([0, -3], [0, 4]), ([0, -1], [0, 4]), ([0, 1], [0, 4]),
  ([0, 3], [0, 4]), ([0, -5], [0, 6]), ([0, -3], [0, 6]), ([0, -1], [0, 6]), ([0, 1], [0, 6]),
  ([0, 3], [0, 6]), ([0, 5], [0, 6]), ([-1, 0], [1, 1]), ([-1, 0], [1, 1]), ([-1, -2], [1, 3]),
  ([-1, 0], [1, 3]), ([-1, 2], [1, 3]), ([-1, -4], [1, 5]), ([-1, -2], [1, 5]), ([-1, 0], [1, 5]),
  ([-1, 2], [1, 5]), ([-1, 4], [1, 5]), ([-1, -4], [1, 5]), ([-1, -2], [1, 5]), ([-1, 0], [1, 5]),
  ([-1, 2], [1, 5]), ([-1, 4], [1, 5]), ([-2, -1], [2, 2]), ([-2, 1], [2, 2]), ([-2, -3], [2, 4]),
  ([-2, -1], [2, 4]), ([-2, 1], [2, 4]), ([-2, 3], [2, 4]), ([-3, 0], [3, 1])]

/-- `c++/symmetry/coefnew/qs/qs-1ch-In2.dat:1-4`, `qs/qs-1ch-QN.dat:1-4`. -/
def tab_QS_1ch : List (Label × Label) := [
  ([1, 0], [-1, 1]), ([0, -1], [0, 2]), ([0, 1], [0, 2]), ([-1, 0], [1, 1])]

/-- `c++/symmetry/coefnew/qs/qs-2ch-In2.dat:1-16`, `qs/qs-2ch-QN.dat:1-16`. -/
def tab_QS_2ch : List (Label × Label) := [
  ([2, 0], [-2, 1]), ([1, -1], [-1, 2]), ([1, 1], [-1, 2]), ([1, -1], [-1, 2]), ([1, 1], [-1, 2]),
  ([0, 0], [0, 1]), ([0, 0], [0, 1]), ([0, 0], [0, 1]), ([0, -2], [0, 3]), ([0, 0], [0, 3]),
  ([0, 2], [0, 3]), ([-1, -1], [1, 2]), ([-1, 1], [1, 2]), ([-1, -1], [1, 2]), ([-1, 1], [1, 2]),
  ([-2, 0], [2, 1])]

/-- `c++/symmetry/coefnew/qs/qs-3ch-In2.dat:1-64`, `qs/qs-3ch-QN.dat:1-64`. -/
def tab_QS_3ch : List (Label × Label) := [
  ([3, 0], [-3, 1]), ([2, -1], [-2, 2]), ([2, 1], [-2, 2]), ([2, -1], [-2, 2]), ([2, 1], [-2, 2]),
  ([2, -1], [-2, 2]), ([2, 1], [-2, 2]), ([1, 0], [-1, 1]), ([1, 0], [-1, 1]), ([1, 0], [-1, 1]),
  ([1, 0], [-1, 1]), ([1, 0], [-1, 1]), ([1, 0], [-1, 1]), ([1, -2], [-1, 3]), ([1, 0], [-1, 3]),
  ([1, 2], [-1, 3]), ([1, -2], [-1, 3]), ([1, 0], [-1, 3]), ([1, 2], [-1, 3]), ([1, -2], [-1, 3]),
  ([1, 0], [-1, 3]), ([1, 2], [-1, 3]), ([0, -1], [0, 2]), ([0, 1], [0, 2]), ([0, -1], [0, 2]),
  ([0, 1], [0, 2]), ([0, -1], [0, 2]), ([0, 1], [0, 2]), ([0, -1], [0, 2]), ([0, 1], [0, 2]),
  ([0, -1], [0, 2]), ([0, 1], [0, 2]), ([0, -1], [0, 2]), ([0, 1], [0, 2]), ([0, -1], [0, 2]),
  ([0, 1], [0, 2]), ([0, -1], [0, 2]), ([0, 1], [0, 2]), ([0, -3], [0, 4]), ([0, -1], [0, 4]),
  ([0, 1], [0, 4]), ([0, 3], [0, 4]), ([-1, 0], [1, 1]), ([-1, 0], [1, 1]), ([-1, 0], [1, 1]),
  ([-1, 0], [1, 1]), ([-1, 0], [1, 1]), ([-1, 0], [1, 1]), ([-1, -2], [1, 3]), ([-1, 0], [1, 3]),
  ([-1, 2], [1, 3]), ([-1, -2], [1, 3]), ([-1, 0], [1, 3]), ([-1, 2], [1, 3]), ([-1, -2], [1, 3]),
  ([-1, 0], [1, 3]), ([-1, 2], [1, 3]), ([-2, -1], [2, 2]), ([-2, 1], [2, 2]), ([-2, -1], [2, 2]),
  ([-2, 1], [2, 2]), ([-2, -1], [2, 2]), ([-2, 1], [2, 2]), ([-3, 0], [3, 1])]

/-- `c++/symmetry/coefnew/qs/qs-4ch-In2.dat:1-256`, `qs/qs-4ch-QN.dat:1-256`. -/
def tab_QS_4ch : List (Label × Label) := [
  ([4, 0], [-4, 1]), ([3, -1], [-3, 2]), ([3, 1], [-3, 2]), ([3, -1], [-3, 2]), ([3, 1], [-3, 2]),
  ([3, -1], [-3, 2]), ([3, 1], [-3, 2]), ([3, -1], [-3, 2]), ([3, 1], [-3, 2]), ([2, 0], [-2, 1]),
  ([2, 0], [-2, 1]), ([2, 0], [-2, 1]), ([2, 0], [-2, 1]), ([2, 0], [-2, 1]), ([2, 0], [-2, 1]),
  ([2, 0], [-2, 1]), ([2, 0], [-2, 1]), ([2, 0], [-2, 1]), ([2, 0], [-2, 1]), ([2, -2], [-2, 3]),
  ([2, 0], [-2, 3]), ([2, 2], [-2, 3]), ([2, -2], [-2, 3]), ([2, 0], [-2, 3]), ([2, 2], [-2, 3]),
  ([2, -2], [-2, 3]), ([2, 0], [-2, 3]), ([2, 2], [-2, 3]), ([2, -2], [-2, 3]), ([2, 0], [-2, 3]),
  ([2, 2], [-2, 3]), ([2, -2], [-2, 3]), ([2, 0], [-2, 3]), ([2, 2], [-2, 3]), ([2, -2], [-2, 3]),
  ([2, 0], [-2, 3]), ([2, 2], [-2, 3]), ([1, -1], [-1, 2]), ([1, 1], [-1, 2]), ([1, -1], [-1, 2]),
  ([1, 1], [-1, 2]), ([1, -1], [-1, 2]), ([1, 1], [-1, 2]), ([1, -1], [-1, 2]), ([1, 1], [-1, 2]),
  ([1, -1], [-1, 2]), ([1, 1], [-1, 2]), ([1, -1], [-1, 2]), ([1, 1], [-1, 2]), ([1, -1], [-1, 2]),
  ([1, 1], [-1, 2]), ([1, -1], [-1, 2]), ([1, 1], [-1, 2]), ([1, -1], [-1, 2]), ([1, 1], [-1, 2]),
  ([1, -1], [-1, 2]), ([1, 1], [-1, 2]), ([1, -1], [-1, 2]), ([1, 1], [-1, 2]), ([1, -1], [-1, 2]),
  ([1, 1], [-1, 2]), ([1, -1], [-1, 2]), ([1, 1], [-1, 2]), ([1, -1], [-1, 2]), ([1, 1], [-1, 2]),
  ([1, -1], [-1, 2]), ([1, 1], [-1, 2]), ([1, -1], [-1, 2]), ([1, 1], [-1, 2]), ([1, -1], [-1, 2]),
  ([1, 1], [-1, 2]), ([1, -1], [-1, 2]), ([1, 1], [-1, 2]), ([1, -1], [-1, 2]), ([1, 1], [-1, 2]),
  ([1, -1], [-1, 2]), ([1, 1], [-1, 2]), ([1, -3], [-1, 4]), ([1, -1], [-1, 4]), ([1, 1], [-1, 4]),
  ([1, 3], [-1, 4]), ([1, -3], [-1, 4]), ([1, -1], [-1, 4]), ([1, 1], [-1, 4]), ([1, 3], [-1, 4]),
  ([1, -3], [-1, 4]), ([1, -1], [-1, 4]), ([1, 1], [-1, 4]), ([1, 3], [-1, 4]), ([1, -3], [-1, 4]),
  ([1, -1], [-1, 4]), ([1, 1], [-1, 4]), ([1, 3], [-1, 4]), ([0, 0], [0, 1]), ([0, 0], [0, 1]),
  ([0, 0], [0, 1]), ([0, 0], [0, 1]), ([0, 0], [0, 1]), ([0, 0], [0, 1]), ([0, 0], [0, 1]),
  ([0, 0], [0, 1]), ([0, 0], [0, 1]), ([0, 0], [0, 1]), ([0, 0], [0, 1]), ([0, 0], [0, 1]),
  ([0, 0], [0, 1]), ([0, 0], [0, 1]), ([0, 0], [0, 1]), ([0, 0], [0, 1]), ([0, 0], [0, 1]),
  ([0, 0], [0, 1]), ([0, 0], [0, 1]), ([0, 0], [0, 1]), ([0, -2], [0, 3]), ([0, 0], [0, 3]),
  ([0, 2], [0, 3]), ([0, -2], [0, 3]), ([0, 0], [0, 3]), ([0, 2], [0, 3]), ([0, -2], [0, 3]),
  ([0, 0], [0, 3]), ([0, 2], [0, 3]), ([0, -2], [0, 3]), ([0, 0], [0, 3]), ([0, 2], [0, 3]),
  ([0, -2], [0, 3]), ([0, 0], [0, 3]), ([0, 2], [0, 3]), ([0, -2], [0, 3]), ([0, 0], [0, 3]),
  ([0, 2], [0, 3]), ([0, -2], [0, 3]), ([0, 0], [0, 3]), ([0, 2], [0, 3]), ([0, -2], [0, 3]),
  ([0, 0], [0, 3]), ([0, 2], [0, 3]), ([0, -2], [0, 3]), ([0, 0], [0, 3]), ([0, 2], [0, 3]),
  ([0, -2], [0, 3]), ([0, 0], [0, 3]), ([0, 2], [0, 3]), ([0, -2], [0, 3]), ([0, 0], [0, 3]),
  ([0, 2], [0, 3]), ([0, -2], [0, 3]), ([0, 0], [0, 3]), ([0, 2], [0, 3]), ([0, -2], [0, 3]),
  ([0, 0], [0, 3]), ([0, 2], [0, 3]), ([0, -2], [0, 3]), ([0, 0], [0, 3]), ([0, 2], [0, 3]),
  ([0, -2], [0, 3]), ([0, 0], [0, 3]), ([0, 2], [0, 3]), ([0, -4], [0, 5]), ([0, -2], [0, 5]),
  ([0, 0], [0, 5]), ([0, 2], [0, 5]), ([0, 4], [0, 5]), ([-1, -1], [1, 2]), ([-1, 1], [1, 2]),
  ([-1, -1], [1, 2]), ([-1, 1], [1, 2]), ([-1, -1], [1, 2]), ([-1, 1], [1, 2]), ([-1, -1], [1, 2]),
  ([-1, 1], [1, 2]), ([-1, -1], [1, 2]), ([-1, 1], [1, 2]), ([-1, -1], [1, 2]), ([-1, 1], [1, 2]),
  ([-1, -1], [1, 2]), ([-1, 1], [1, 2]), ([-1, -1], [1, 2]), ([-1, 1], [1, 2]), ([-1, -1], [1, 2]),
  ([-1, 1], [1, 2]), ([-1, -1], [1, 2]), ([-1, 1], [1, 2]), ([-1, -1], [1, 2]), ([-1, 1], [1, 2]),
  ([-1, -1], [1, 2]), ([-1, 1], [1, 2]), ([-1, -1], [1, 2]), ([-1, 1], [1, 2]), ([-1, -1], [1, 2]),
  ([-1, 1], [1, 2]), ([-1, -1], [1, 2]), ([-1, 1], [1, 2]), ([-1, -1], [1, 2]), ([-1, 1], [1, 2]),
  ([-1, -1], [1, 2]), ([-1, 1], [1, 2]), ([-1, -1], [1, 2]), ([-1, 1], [1, 2]), ([-1, -1], [1, 2]),
  ([-1, 1], [1, 2]), ([-1, -1], [1, 2]), ([-1, 1], [1, 2]), ([-1, -3], [1, 4]), ([-1, -1], [1, 4]),
  ([-1, 1], [1, 4]), ([-1, 3], [1, 4]), ([-1, -3], [1, 4]), ([-1, -1], [1, 4]), ([-1, 1], [1, 4]),
  ([-1, 3], [1, 4]), ([-1, -3], [1, 4]), ([-1, -1], [1, 4]), ([-1, 1], [1, 4]), ([-1, 3], [1, 4]),
  ([-1, -3], [1, 4]), ([-1, -1], [1, 4]), ([-1, 1], [1, 4]), ([-1, 3], [1, 4]), ([-2, 0], [2, 1]),
  ([-2, 0], [2, 1]), ([-2, 0], [2, 1]), ([-2, 0], [2, 1]), ([-2, 0], [2, 1]), ([-2, 0], [2, 1]),
  ([-2, 0], [2, 1]), ([-2, 0], [2, 1]), ([-2, 0], [2, 1]), ([-2, 0], [2, 1]), ([-2, -2], [2, 3]),
  ([-2, 0], [2, 3]), ([-2, 2], [2, 3]), ([-2, -2], [2, 3]), ([-2, 0], [2, 3]), ([-2, 2], [2, 3]),
  ([-2, -2], [2, 3]), ([-2, 0], [2, 3]), ([-2, 2], [2, 3]), ([-2, -2], [2, 3]), ([-2, 0], [2, 3]),
  ([-2, 2], [2, 3]), ([-2, -2], [2, 3]), ([-2, 0], [2, 3]), ([-2, 2], [2, 3]), ([-2, -2], [2, 3]),
  ([-2, 0], [2, 3]), ([-2, 2], [2, 3]), ([-3, -1], [3, 2]), ([-3, 1], [3, 2]), ([-3, -1], [3, 2]),
  ([-3, 1], [3, 2]), ([-3, -1], [3, 2]), ([-3, 1], [3, 2]), ([-3, -1], [3, 2]), ([-3, 1], [3, 2]),
  ([-4, 0], [4, 1])]

/-- `c++/symmetry/coefnew/qsc3/qsc3-In2.dat:1-64`, `qsc3/qsc3-QN.dat:1-64`. -/
def tab_QSC3_3ch : List (Label × Label) := [
  ([3, 0, 0], [-3, 1, 0]), ([2, -1, 0], [-2, 2, 0]), ([2, 1, 0], [-2, 2, 0]),
  ([2, -1, 2], [-2, 2, 1]), ([2, 1, 2], [-2, 2, 1]), ([2, -1, 1], [-2, 2, 2]),
  ([2, 1, 1], [-2, 2, 2]), ([1, 0, 0], [-1, 1, 0]), ([1, 0, 0], [-1, 1, 0]),
  ([1, 0, 2], [-1, 1, 1]), ([1, 0, 2], [-1, 1, 1]), ([1, 0, 1], [-1, 1, 2]),
  ([1, 0, 1], [-1, 1, 2]), ([1, -2, 0], [-1, 3, 0]), ([1, 0, 0], [-1, 3, 0]),
  ([1, 2, 0], [-1, 3, 0]), ([1, -2, 2], [-1, 3, 1]), ([1, 0, 2], [-1, 3, 1]),
  ([1, 2, 2], [-1, 3, 1]), ([1, -2, 1], [-1, 3, 2]), ([1, 0, 1], [-1, 3, 2]),
  ([1, 2, 1], [-1, 3, 2]), ([0, -1, 0], [0, 2, 0]), ([0, 1, 0], [0, 2, 0]),
  ([0, -1, 0], [0, 2, 0]), ([0, 1, 0], [0, 2, 0]), ([0, -1, 2], [0, 2, 1]), ([0, 1, 2], [0, 2, 1]),
  ([0, -1, 2], [0, 2, 1]), ([0, 1, 2], [0, 2, 1]), ([0, -1, 2], [0, 2, 1]), ([0, 1, 2], [0, 2, 1]),
  ([0, -1, 1], [0, 2, 2]), ([0, 1, 1], [0, 2, 2]), ([0, -1, 1], [0, 2, 2]), ([0, 1, 1], [0, 2, 2]),
  ([0, -1, 1], [0, 2, 2]), ([0, 1, 1], [0, 2, 2]), ([0, -3, 0], [0, 4, 0]),
  ([0, -1, 0], [0, 4, 0]), ([0, 1, 0], [0, 4, 0]), ([0, 3, 0], [0, 4, 0]), ([-1, 0, 0], [1, 1, 0]),
  ([-1, 0, 0], [1, 1, 0]), ([-1, 0, 2], [1, 1, 1]), ([-1, 0, 2], [1, 1, 1]),
  ([-1, 0, 1], [1, 1, 2]), ([-1, 0, 1], [1, 1, 2]), ([-1, -2, 0], [1, 3, 0]),
  ([-1, 0, 0], [1, 3, 0]), ([-1, 2, 0], [1, 3, 0]), ([-1, -2, 2], [1, 3, 1]),
  ([-1, 0, 2], [1, 3, 1]), ([-1, 2, 2], [1, 3, 1]), ([-1, -2, 1], [1, 3, 2]),
  ([-1, 0, 1], [1, 3, 2]), ([-1, 2, 1], [1, 3, 2]), ([-2, -1, 0], [2, 2, 0]),
  ([-2, 1, 0], [2, 2, 0]), ([-2, -1, 2], [2, 2, 1]), ([-2, 1, 2], [2, 2, 1]),
  ([-2, -1, 1], [2, 2, 2]), ([-2, 1, 1], [2, 2, 2]), ([-3, 0, 0], [3, 1, 0])]

/-- `c++/symmetry/coefnew/qslr/qslr-2ch-In2.dat:1-16`, `qslr/qslr-2ch-QN.dat:1-16`. -/
def tab_QSLR_2ch : List (Label × Label) := [
  ([2, 0, 1], [-2, 1, 1]), ([1, -1, -1], [-1, 2, -1]), ([1, 1, -1], [-1, 2, -1]),
  ([1, -1, 1], [-1, 2, 1]), ([1, 1, 1], [-1, 2, 1]), ([0, 0, -1], [0, 1, -1]),
  ([0, 0, 1], [0, 1, 1]), ([0, 0, 1], [0, 1, 1]), ([0, -2, -1], [0, 3, -1]),
  ([0, 0, -1], [0, 3, -1]), ([0, 2, -1], [0, 3, -1]), ([-1, -1, -1], [1, 2, -1]),
  ([-1, 1, -1], [1, 2, -1]), ([-1, -1, 1], [1, 2, 1]), ([-1, 1, 1], [1, 2, 1]),
  ([-2, 0, 1], [2, 1, 1])]

/-- `c++/symmetry/coefnew/qst/qst-In2.dat:1-64`, `qst/qst-QN.dat:1-64`. -/
def tab_QST_3ch : List (Label × Label) := [
  ([3, 0, 0], [-3, 1, 0]), ([2, -1, -1], [-2, 2, 1]), ([2, -1, 0], [-2, 2, 1]),
  ([2, -1, 1], [-2, 2, 1]), ([2, 1, -1], [-2, 2, 1]), ([2, 1, 0], [-2, 2, 1]),
  ([2, 1, 1], [-2, 2, 1]), ([1, 0, 0], [-1, 1, 0]), ([1, 0, -2], [-1, 1, 2]),
  ([1, 0, -1], [-1, 1, 2]), ([1, 0, 0], [-1, 1, 2]), ([1, 0, 1], [-1, 1, 2]),
  ([1, 0, 2], [-1, 1, 2]), ([1, -2, -1], [-1, 3, 1]), ([1, -2, 0], [-1, 3, 1]),
  ([1, -2, 1], [-1, 3, 1]), ([1, 0, -1], [-1, 3, 1]), ([1, 0, 0], [-1, 3, 1]),
  ([1, 0, 1], [-1, 3, 1]), ([1, 2, -1], [-1, 3, 1]), ([1, 2, 0], [-1, 3, 1]),
  ([1, 2, 1], [-1, 3, 1]), ([0, -1, -1], [0, 2, 1]), ([0, -1, 0], [0, 2, 1]),
  ([0, -1, 1], [0, 2, 1]), ([0, 1, -1], [0, 2, 1]), ([0, 1, 0], [0, 2, 1]), ([0, 1, 1], [0, 2, 1]),
  ([0, -1, -2], [0, 2, 2]), ([0, -1, -1], [0, 2, 2]), ([0, -1, 0], [0, 2, 2]),
  ([0, -1, 1], [0, 2, 2]), ([0, -1, 2], [0, 2, 2]), ([0, 1, -2], [0, 2, 2]),
  ([0, 1, -1], [0, 2, 2]), ([0, 1, 0], [0, 2, 2]), ([0, 1, 1], [0, 2, 2]), ([0, 1, 2], [0, 2, 2]),
  ([0, -3, 0], [0, 4, 0]), ([0, -1, 0], [0, 4, 0]), ([0, 1, 0], [0, 4, 0]), ([0, 3, 0], [0, 4, 0]),
  ([-1, 0, 0], [1, 1, 0]), ([-1, 0, -2], [1, 1, 2]), ([-1, 0, -1], [1, 1, 2]),
  ([-1, 0, 0], [1, 1, 2]), ([-1, 0, 1], [1, 1, 2]), ([-1, 0, 2], [1, 1, 2]),
  ([-1, -2, -1], [1, 3, 1]), ([-1, -2, 0], [1, 3, 1]), ([-1, -2, 1], [1, 3, 1]),
  ([-1, 0, -1], [1, 3, 1]), ([-1, 0, 0], [1, 3, 1]), ([-1, 0, 1], [1, 3, 1]),
  ([-1, 2, -1], [1, 3, 1]), ([-1, 2, 0], [1, 3, 1]), ([-1, 2, 1], [1, 3, 1]),
  ([-2, -1, -1], [2, 2, 1]), ([-2, -1, 0], [2, 2, 1]), ([-2, -1, 1], [2, 2, 1]),
  ([-2, 1, -1], [2, 2, 1]), ([-2, 1, 0], [2, 2, 1]), ([-2, 1, 1], [2, 2, 1]),
  ([-3, 0, 0], [3, 1, 0])]

/-- `c++/symmetry/coefnew/qstz/qstz-In2.dat:1-64`, `qstz/qstz-QN.dat:1-64`. -/
def tab_QSTZ_3ch : List (Label × Label) := [
  ([3, 0, 0], [-3, 1, 0]), ([2, -1, 1], [-2, 2, -1]), ([2, 1, 1], [-2, 2, -1]),
  ([2, -1, 0], [-2, 2, 0]), ([2, 1, 0], [-2, 2, 0]), ([2, -1, -1], [-2, 2, 1]),
  ([2, 1, -1], [-2, 2, 1]), ([1, 0, 2], [-1, 1, -2]), ([1, 0, 1], [-1, 1, -1]),
  ([1, 0, 0], [-1, 1, 0]), ([1, 0, 0], [-1, 1, 0]), ([1, 0, -1], [-1, 1, 1]),
  ([1, 0, -2], [-1, 1, 2]), ([1, -2, 1], [-1, 3, -1]), ([1, 0, 1], [-1, 3, -1]),
  ([1, 2, 1], [-1, 3, -1]), ([1, -2, 0], [-1, 3, 0]), ([1, 0, 0], [-1, 3, 0]),
  ([1, 2, 0], [-1, 3, 0]), ([1, -2, -1], [-1, 3, 1]), ([1, 0, -1], [-1, 3, 1]),
  ([1, 2, -1], [-1, 3, 1]), ([0, -1, 2], [0, 2, -2]), ([0, 1, 2], [0, 2, -2]),
  ([0, -1, 1], [0, 2, -1]), ([0, 1, 1], [0, 2, -1]), ([0, -1, 1], [0, 2, -1]),
  ([0, 1, 1], [0, 2, -1]), ([0, -1, 0], [0, 2, 0]), ([0, 1, 0], [0, 2, 0]),
  ([0, -1, 0], [0, 2, 0]), ([0, 1, 0], [0, 2, 0]), ([0, -1, -1], [0, 2, 1]),
  ([0, 1, -1], [0, 2, 1]), ([0, -1, -1], [0, 2, 1]), ([0, 1, -1], [0, 2, 1]),
  ([0, -1, -2], [0, 2, 2]), ([0, 1, -2], [0, 2, 2]), ([0, -3, 0], [0, 4, 0]),
  ([0, -1, 0], [0, 4, 0]), ([0, 1, 0], [0, 4, 0]), ([0, 3, 0], [0, 4, 0]),
  ([-1, 0, 2], [1, 1, -2]), ([-1, 0, 1], [1, 1, -1]), ([-1, 0, 0], [1, 1, 0]),
  ([-1, 0, 0], [1, 1, 0]), ([-1, 0, -1], [1, 1, 1]), ([-1, 0, -2], [1, 1, 2]),
  ([-1, -2, 1], [1, 3, -1]), ([-1, 0, 1], [1, 3, -1]), ([-1, 2, 1], [1, 3, -1]),
  ([-1, -2, 0], [1, 3, 0]), ([-1, 0, 0], [1, 3, 0]), ([-1, 2, 0], [1, 3, 0]),
  ([-1, -2, -1], [1, 3, 1]), ([-1, 0, -1], [1, 3, 1]), ([-1, 2, -1], [1, 3, 1]),
  ([-2, -1, 1], [2, 2, -1]), ([-2, 1, 1], [2, 2, -1]), ([-2, -1, 0], [2, 2, 0]),
  ([-2, 1, 0], [2, 2, 0]), ([-2, -1, -1], [2, 2, 1]), ([-2, 1, -1], [2, 2, 1]),
  ([-3, 0, 0], [3, 1, 0])]

/-- `c++/symmetry/coefnew/qsz/qsz-1ch-In2.dat:1-4`, `qsz/qsz-1ch-QN.dat:1-4`. -/
def tab_QSZ_1ch : List (Label × Label) := [
  ([1, 0], [-1, 0]), ([0, 1], [0, -1]), ([0, -1], [0, 1]), ([-1, 0], [1, 0])]

/-- `c++/symmetry/coefnew/qsz/qsz-2ch-In2.dat:1-16`, `qsz/qsz-2ch-QN.dat:1-16`. -/
def tab_QSZ_2ch : List (Label × Label) := [
  ([2, 0], [-2, 0]), ([1, 1], [-1, -1]), ([1, 1], [-1, -1]), ([1, -1], [-1, 1]),
  ([1, -1], [-1, 1]), ([0, 2], [0, -2]), ([0, 0], [0, 0]), ([0, 0], [0, 0]), ([0, 0], [0, 0]),
  ([0, 0], [0, 0]), ([0, -2], [0, 2]), ([-1, 1], [1, -1]), ([-1, 1], [1, -1]), ([-1, -1], [1, 1]),
  ([-1, -1], [1, 1]), ([-2, 0], [2, 0])]

/-- `c++/symmetry/coefnew/qsz/qsz-3ch-In2.dat:1-64`, `qsz/qsz-3ch-QN.dat:1-64`. -/
def tab_QSZ_3ch : List (Label × Label) := [
  ([3, 0], [-3, 0]), ([2, 1], [-2, -1]), ([2, 1], [-2, -1]), ([2, 1], [-2, -1]),
  ([2, -1], [-2, 1]), ([2, -1], [-2, 1]), ([2, -1], [-2, 1]), ([1, 2], [-1, -2]),
  ([1, 2], [-1, -2]), ([1, 2], [-1, -2]), ([1, 0], [-1, 0]), ([1, 0], [-1, 0]), ([1, 0], [-1, 0]),
  ([1, 0], [-1, 0]), ([1, 0], [-1, 0]), ([1, 0], [-1, 0]), ([1, 0], [-1, 0]), ([1, 0], [-1, 0]),
  ([1, 0], [-1, 0]), ([1, -2], [-1, 2]), ([1, -2], [-1, 2]), ([1, -2], [-1, 2]), ([0, 3], [0, -3]),
  ([0, 1], [0, -1]), ([0, 1], [0, -1]), ([0, 1], [0, -1]), ([0, 1], [0, -1]), ([0, 1], [0, -1]),
  ([0, 1], [0, -1]), ([0, 1], [0, -1]), ([0, 1], [0, -1]), ([0, 1], [0, -1]), ([0, -1], [0, 1]),
  ([0, -1], [0, 1]), ([0, -1], [0, 1]), ([0, -1], [0, 1]), ([0, -1], [0, 1]), ([0, -1], [0, 1]),
  ([0, -1], [0, 1]), ([0, -1], [0, 1]), ([0, -1], [0, 1]), ([0, -3], [0, 3]), ([-1, 2], [1, -2]),
  ([-1, 2], [1, -2]), ([-1, 2], [1, -2]), ([-1, 0], [1, 0]), ([-1, 0], [1, 0]), ([-1, 0], [1, 0]),
  ([-1, 0], [1, 0]), ([-1, 0], [1, 0]), ([-1, 0], [1, 0]), ([-1, 0], [1, 0]), ([-1, 0], [1, 0]),
  ([-1, 0], [1, 0]), ([-1, -2], [1, 2]), ([-1, -2], [1, 2]), ([-1, -2], [1, 2]),
  ([-2, 1], [2, -1]), ([-2, 1], [2, -1]), ([-2, 1], [2, -1]), ([-2, -1], [2, 1]),
  ([-2, -1], [2, 1]), ([-2, -1], [2, 1]), ([-3, 0], [3, 0])]

/-- `c++/symmetry/coefnew/qszlr/qszlr-2ch-In2.dat:1-16`, `qszlr/qszlr-2ch-QN.dat:1-16`. -/
def tab_QSZLR_2ch : List (Label × Label) := [
  ([2, 0, 1], [-2, 0, 1]), ([1, 1, -1], [-1, -1, -1]), ([1, 1, 1], [-1, -1, 1]),
  ([1, -1, -1], [-1, 1, -1]), ([1, -1, 1], [-1, 1, 1]), ([0, 2, -1], [0, -2, -1]),
  ([0, 0, -1], [0, 0, -1]), ([0, 0, -1], [0, 0, -1]), ([0, 0, 1], [0, 0, 1]),
  ([0, 0, 1], [0, 0, 1]), ([0, -2, -1], [0, 2, -1]), ([-1, 1, -1], [1, -1, -1]),
  ([-1, 1, 1], [1, -1, 1]), ([-1, -1, -1], [1, 1, -1]), ([-1, -1, 1], [1, 1, 1]),
  ([-2, 0, 1], [2, 0, 1])]

/-- `c++/symmetry/coefnew/qsztz/qsztz-In2.dat:1-64`, `qsztz/qsztz-QN.dat:1-64`. -/
def tab_QSZTZ_3ch : List (Label × Label) := [
  ([3, 0, 0], [-3, 0, 0]), ([2, 1, 1], [-2, -1, -1]), ([2, 1, 0], [-2, -1, 0]),
  ([2, 1, -1], [-2, -1, 1]), ([2, -1, 1], [-2, 1, -1]), ([2, -1, 0], [-2, 1, 0]),
  ([2, -1, -1], [-2, 1, 1]), ([1, 2, 1], [-1, -2, -1]), ([1, 2, 0], [-1, -2, 0]),
  ([1, 2, -1], [-1, -2, 1]), ([1, 0, 2], [-1, 0, -2]), ([1, 0, 1], [-1, 0, -1]),
  ([1, 0, 1], [-1, 0, -1]), ([1, 0, 0], [-1, 0, 0]), ([1, 0, 0], [-1, 0, 0]),
  ([1, 0, 0], [-1, 0, 0]), ([1, 0, -1], [-1, 0, 1]), ([1, 0, -1], [-1, 0, 1]),
  ([1, 0, -2], [-1, 0, 2]), ([1, -2, 1], [-1, 2, -1]), ([1, -2, 0], [-1, 2, 0]),
  ([1, -2, -1], [-1, 2, 1]), ([0, 3, 0], [0, -3, 0]), ([0, 1, 2], [0, -1, -2]),
  ([0, 1, 1], [0, -1, -1]), ([0, 1, 1], [0, -1, -1]), ([0, 1, 0], [0, -1, 0]),
  ([0, 1, 0], [0, -1, 0]), ([0, 1, 0], [0, -1, 0]), ([0, 1, -1], [0, -1, 1]),
  ([0, 1, -1], [0, -1, 1]), ([0, 1, -2], [0, -1, 2]), ([0, -1, 2], [0, 1, -2]),
  ([0, -1, 1], [0, 1, -1]), ([0, -1, 1], [0, 1, -1]), ([0, -1, 0], [0, 1, 0]),
  ([0, -1, 0], [0, 1, 0]), ([0, -1, 0], [0, 1, 0]), ([0, -1, -1], [0, 1, 1]),
  ([0, -1, -1], [0, 1, 1]), ([0, -1, -2], [0, 1, 2]), ([0, -3, 0], [0, 3, 0]),
  ([-1, 2, 1], [1, -2, -1]), ([-1, 2, 0], [1, -2, 0]), ([-1, 2, -1], [1, -2, 1]),
  ([-1, 0, 2], [1, 0, -2]), ([-1, 0, 1], [1, 0, -1]), ([-1, 0, 1], [1, 0, -1]),
  ([-1, 0, 0], [1, 0, 0]), ([-1, 0, 0], [1, 0, 0]), ([-1, 0, 0], [1, 0, 0]),
  ([-1, 0, -1], [1, 0, 1]), ([-1, 0, -1], [1, 0, 1]), ([-1, 0, -2], [1, 0, 2]),
  ([-1, -2, 1], [1, 2, -1]), ([-1, -2, 0], [1, 2, 0]), ([-1, -2, -1], [1, 2, 1]),
  ([-2, 1, 1], [2, -1, -1]), ([-2, 1, 0], [2, -1, 0]), ([-2, 1, -1], [2, -1, 1]),
  ([-2, -1, 1], [2, 1, -1]), ([-2, -1, 0], [2, 1, 0]), ([-2, -1, -1], [2, 1, 1]),
  ([-3, 0, 0], [3, 0, 0])]

/-- `c++/symmetry/coefnew/sl/sl-1ch-In2.dat:1-2`, `sl/sl-1ch-QN.dat:1-2`. -/
def tab_SL_1ch : List (Label × Label) := [
  ([1], [-1]), ([0], [0])]

/-- `c++/symmetry/coefnew/sl/sl-2ch-In2.dat:1-4`, `sl/sl-2ch-QN.dat:1-4`. -/
def tab_SL_2ch : List (Label × Label) := [
  ([2], [-2]), ([1], [-1]), ([1], [-1]), ([0], [0])]

/-- `c++/symmetry/coefnew/sl/sl-3ch-In2.dat:1-8`, `sl/sl-3ch-QN.dat:1-8`. -/
def tab_SL_3ch : List (Label × Label) := [
  ([3], [-3]), ([2], [-2]), ([2], [-2]), ([2], [-2]), ([1], [-1]), ([1], [-1]), ([1], [-1]),
  ([0], [0])]

/-- `c++/symmetry/coefnew/sl3/sl3-3ch-In2.dat:1-8`, `sl3/sl3-3ch-QN.dat:1-8`. -/
def tab_SL3_3ch : List (Label × Label) := [
  ([1, 1, 1], [-1, -1, -1]), ([1, 1, 0], [-1, -1, 0]), ([1, 0, 1], [-1, 0, -1]),
  ([1, 0, 0], [-1, 0, 0]), ([0, 1, 1], [0, -1, -1]), ([0, 1, 0], [0, -1, 0]),
  ([0, 0, 1], [0, 0, -1]), ([0, 0, 0], [0, 0, 0])]

/-- `c++/symmetry/coefnew/spsu2/spsu2-1ch-In2.dat:1-4`, `spsu2/spsu2-1ch-QN.dat:1-4`. -/
def tab_SPSU2_1ch : List (Label × Label) := [
  ([0], [1]), ([0], [1]), ([-1], [2]), ([1], [2])]

/-- `c++/symmetry/coefnew/spsu2/spsu2-2ch-In2.dat:1-16`, `spsu2/spsu2-2ch-QN.dat:1-16`. -/
def tab_SPSU2_2ch : List (Label × Label) := [
  ([0], [1]), ([0], [1]), ([0], [1]), ([0], [1]), ([0], [1]), ([-1], [2]), ([1], [2]), ([-1], [2]),
  ([1], [2]), ([-1], [2]), ([1], [2]), ([-1], [2]), ([1], [2]), ([-2], [3]), ([0], [3]), ([2], [3])]

/-- `c++/symmetry/coefnew/spsu2/spsu2-3ch-In2.dat:1-64`, `spsu2/spsu2-3ch-QN.dat:1-64`. -/
def tab_SPSU2_3ch : List (Label × Label) := [
  ([0], [1]), ([0], [1]), ([0], [1]), ([0], [1]), ([0], [1]), ([0], [1]), ([0], [1]), ([0], [1]),
  ([0], [1]), ([0], [1]), ([0], [1]), ([0], [1]), ([0], [1]), ([0], [1]), ([-1], [2]), ([1], [2]),
  ([-1], [2]), ([1], [2]), ([-1], [2]), ([1], [2]), ([-1], [2]), ([1], [2]), ([-1], [2]),
  ([1], [2]), ([-1], [2]), ([1], [2]), ([-1], [2]), ([1], [2]), ([-1], [2]), ([1], [2]),
  ([-1], [2]), ([1], [2]), ([-1], [2]), ([1], [2]), ([-1], [2]), ([1], [2]), ([-1], [2]),
  ([1], [2]), ([-1], [2]), ([1], [2]), ([-1], [2]), ([1], [2]), ([-2], [3]), ([0], [3]),
  ([2], [3]), ([-2], [3]), ([0], [3]), ([2], [3]), ([-2], [3]), ([0], [3]), ([2], [3]),
  ([-2], [3]), ([0], [3]), ([2], [3]), ([-2], [3]), ([0], [3]), ([2], [3]), ([-2], [3]),
  ([0], [3]), ([2], [3]), ([-3], [4]), ([-1], [4]), ([1], [4]), ([3], [4])]

/-- `c++/symmetry/coefnew/spsu2c3/spsu2c3-In2.dat:1-64`, `spsu2c3/spsu2c3-QN.dat:1-64`. -/
def tab_SPSU2C3_3ch : List (Label × Label) := [
  ([0, 0], [1, 0]), ([0, 0], [1, 0]), ([0, 0], [1, 0]), ([0, 0], [1, 0]), ([0, 0], [1, 0]),
  ([0, 0], [1, 0]), ([0, 2], [1, 1]), ([0, 2], [1, 1]), ([0, 2], [1, 1]), ([0, 2], [1, 1]),
  ([0, 1], [1, 2]), ([0, 1], [1, 2]), ([0, 1], [1, 2]), ([0, 1], [1, 2]), ([-1, 0], [2, 0]),
  ([1, 0], [2, 0]), ([-1, 0], [2, 0]), ([1, 0], [2, 0]), ([-1, 0], [2, 0]), ([1, 0], [2, 0]),
  ([-1, 0], [2, 0]), ([1, 0], [2, 0]), ([-1, 2], [2, 1]), ([1, 2], [2, 1]), ([-1, 2], [2, 1]),
  ([1, 2], [2, 1]), ([-1, 2], [2, 1]), ([1, 2], [2, 1]), ([-1, 2], [2, 1]), ([1, 2], [2, 1]),
  ([-1, 2], [2, 1]), ([1, 2], [2, 1]), ([-1, 1], [2, 2]), ([1, 1], [2, 2]), ([-1, 1], [2, 2]),
  ([1, 1], [2, 2]), ([-1, 1], [2, 2]), ([1, 1], [2, 2]), ([-1, 1], [2, 2]), ([1, 1], [2, 2]),
  ([-1, 1], [2, 2]), ([1, 1], [2, 2]), ([-2, 0], [3, 0]), ([0, 0], [3, 0]), ([2, 0], [3, 0]),
  ([-2, 0], [3, 0]), ([0, 0], [3, 0]), ([2, 0], [3, 0]), ([-2, 2], [3, 1]), ([0, 2], [3, 1]),
  ([2, 2], [3, 1]), ([-2, 2], [3, 1]), ([0, 2], [3, 1]), ([2, 2], [3, 1]), ([-2, 1], [3, 2]),
  ([0, 1], [3, 2]), ([2, 1], [3, 2]), ([-2, 1], [3, 2]), ([0, 1], [3, 2]), ([2, 1], [3, 2]),
  ([-3, 0], [4, 0]), ([-1, 0], [4, 0]), ([1, 0], [4, 0]), ([3, 0], [4, 0])]

/-- `c++/symmetry/coefnew/spsu2lr/spsu2lr-2ch-In2.dat:1-16`, `spsu2lr/spsu2lr-2ch-QN.dat:1-16`. -/
def tab_SPSU2LR_2ch : List (Label × Label) := [
  ([0, -1], [1, -1]), ([0, 1], [1, 1]), ([0, 1], [1, 1]), ([0, 1], [1, 1]), ([0, 1], [1, 1]),
  ([-1, -1], [2, -1]), ([1, -1], [2, -1]), ([-1, -1], [2, -1]), ([1, -1], [2, -1]),
  ([-1, 1], [2, 1]), ([1, 1], [2, 1]), ([-1, 1], [2, 1]), ([1, 1], [2, 1]), ([-2, -1], [3, -1]),
  ([0, -1], [3, -1]), ([2, -1], [3, -1])]

/-- `c++/symmetry/coefnew/spsu2t/spsu2t-In2.dat:1-64`, `spsu2t/spsu2t-QN.dat:1-64`. -/
def tab_SPSU2T_3ch : List (Label × Label) := [
  ([0, 0], [1, 0]), ([0, 0], [1, 0]), ([0, 0], [1, 0]), ([0, 0], [1, 0]), ([0, -2], [1, 2]),
  ([0, -1], [1, 2]), ([0, 0], [1, 2]), ([0, 1], [1, 2]), ([0, 2], [1, 2]), ([0, -2], [1, 2]),
  ([0, -1], [1, 2]), ([0, 0], [1, 2]), ([0, 1], [1, 2]), ([0, 2], [1, 2]), ([-1, -1], [2, 1]),
  ([-1, 0], [2, 1]), ([-1, 1], [2, 1]), ([1, -1], [2, 1]), ([1, 0], [2, 1]), ([1, 1], [2, 1]),
  ([-1, -1], [2, 1]), ([-1, 0], [2, 1]), ([-1, 1], [2, 1]), ([1, -1], [2, 1]), ([1, 0], [2, 1]),
  ([1, 1], [2, 1]), ([-1, -1], [2, 1]), ([-1, 0], [2, 1]), ([-1, 1], [2, 1]), ([1, -1], [2, 1]),
  ([1, 0], [2, 1]), ([1, 1], [2, 1]), ([-1, -2], [2, 2]), ([-1, -1], [2, 2]), ([-1, 0], [2, 2]),
  ([-1, 1], [2, 2]), ([-1, 2], [2, 2]), ([1, -2], [2, 2]), ([1, -1], [2, 2]), ([1, 0], [2, 2]),
  ([1, 1], [2, 2]), ([1, 2], [2, 2]), ([-2, -1], [3, 1]), ([-2, 0], [3, 1]), ([-2, 1], [3, 1]),
  ([0, -1], [3, 1]), ([0, 0], [3, 1]), ([0, 1], [3, 1]), ([2, -1], [3, 1]), ([2, 0], [3, 1]),
  ([2, 1], [3, 1]), ([-2, -1], [3, 1]), ([-2, 0], [3, 1]), ([-2, 1], [3, 1]), ([0, -1], [3, 1]),
  ([0, 0], [3, 1]), ([0, 1], [3, 1]), ([2, -1], [3, 1]), ([2, 0], [3, 1]), ([2, 1], [3, 1]),
  ([-3, 0], [4, 0]), ([-1, 0], [4, 0]), ([1, 0], [4, 0]), ([3, 0], [4, 0])]

/-- `c++/symmetry/coefnew/spu1/spu1-1ch-In2.dat:1-4`, `spu1/spu1-1ch-QN.dat:1-4`. -/
def tab_SPU1_1ch : List (Label × Label) := [
  ([1], [-1]), ([0], [0]), ([0], [0]), ([-1], [1])]

/-- `c++/symmetry/coefnew/spu1/spu1-2ch-In2.dat:1-16`, `spu1/spu1-2ch-QN.dat:1-16`. -/
def tab_SPU1_2ch : List (Label × Label) := [
  ([2], [-2]), ([1], [-1]), ([1], [-1]), ([1], [-1]), ([1], [-1]), ([0], [0]), ([0], [0]),
  ([0], [0]), ([0], [0]), ([0], [0]), ([0], [0]), ([-1], [1]), ([-1], [1]), ([-1], [1]),
  ([-1], [1]), ([-2], [2])]

/-- `c++/symmetry/coefnew/spu1lr/spu1lr-1ch-In2.dat:1-4`, `spu1lr/spu1lr-1ch-QN.dat:1-4`. -/
def tab_SPU1LR_1ch : List (Label × Label) := [
  ([1, 1], [-1, 1]), ([0, 1], [0, 1]), ([0, 1], [0, 1]), ([-1, 1], [1, 1])]

/-- `c++/symmetry/coefnew/spu1lr/spu1lr-2ch-In2.dat:1-16`, `spu1lr/spu1lr-2ch-QN.dat:1-16`. -/
def tab_SPU1LR_2ch : List (Label × Label) := [
  ([2, -1], [-2, -1]), ([1, -1], [-1, -1]), ([1, -1], [-1, -1]), ([1, 1], [-1, 1]),
  ([1, 1], [-1, 1]), ([0, -1], [0, -1]), ([0, -1], [0, -1]), ([0, 1], [0, 1]), ([0, 1], [0, 1]),
  ([0, 1], [0, 1]), ([0, 1], [0, 1]), ([-1, -1], [1, -1]), ([-1, -1], [1, -1]), ([-1, 1], [1, 1]),
  ([-1, 1], [1, 1]), ([-2, -1], [2, -1])]

/-- `c++/symmetry/coefnew/su2/su2-1ch-In2.dat:1-4`, `su2/su2-1ch-QN.dat:1-4`. -/
def tab_SU2_1ch : List (Label × Label) := [
  ([-1], [2]), ([1], [2]), ([0], [1]), ([0], [1])]

/-- `c++/symmetry/coefnew/su2/su2-2ch-In2.dat:1-16`, `su2/su2-2ch-QN.dat:1-16`. -/
def tab_SU2_2ch : List (Label × Label) := [
  ([-2], [3]), ([0], [3]), ([2], [3]), ([-1], [2]), ([1], [2]), ([-1], [2]), ([1], [2]),
  ([-1], [2]), ([1], [2]), ([-1], [2]), ([1], [2]), ([0], [1]), ([0], [1]), ([0], [1]), ([0], [1]),
  ([0], [1])]

/-- `c++/symmetry/coefnew/u1/u1-1ch-In2.dat:1-4`, `u1/u1-1ch-QN.dat:1-4`. -/
def tab_U1_1ch : List (Label × Label) := [
  ([1], [-1]), ([0], [0]), ([0], [0]), ([-1], [1])]

/-- `c++/symmetry/coefnew/u1/u1-2ch-In2.dat:1-16`, `u1/u1-2ch-QN.dat:1-16`. -/
def tab_U1_2ch : List (Label × Label) := [
  ([2], [-2]), ([1], [-1]), ([1], [-1]), ([1], [-1]), ([1], [-1]), ([0], [0]), ([0], [0]),
  ([0], [0]), ([0], [0]), ([0], [0]), ([0], [0]), ([-1], [1]), ([-1], [1]), ([-1], [1]),
  ([-1], [1]), ([-2], [2])]

/-- `c++/symmetry/coefnew/u1/u1-3ch-In2.dat:1-64`, `u1/u1-3ch-QN.dat:1-64`. -/
def tab_U1_3ch : List (Label × Label) := [
  ([3], [-3]), ([2], [-2]), ([2], [-2]), ([2], [-2]), ([2], [-2]), ([2], [-2]), ([2], [-2]),
  ([1], [-1]), ([1], [-1]), ([1], [-1]), ([1], [-1]), ([1], [-1]), ([1], [-1]), ([1], [-1]),
  ([1], [-1]), ([1], [-1]), ([1], [-1]), ([1], [-1]), ([1], [-1]), ([1], [-1]), ([1], [-1]),
  ([1], [-1]), ([0], [0]), ([0], [0]), ([0], [0]), ([0], [0]), ([0], [0]), ([0], [0]), ([0], [0]),
  ([0], [0]), ([0], [0]), ([0], [0]), ([0], [0]), ([0], [0]), ([0], [0]), ([0], [0]), ([0], [0]),
  ([0], [0]), ([0], [0]), ([0], [0]), ([0], [0]), ([0], [0]), ([-1], [1]), ([-1], [1]),
  ([-1], [1]), ([-1], [1]), ([-1], [1]), ([-1], [1]), ([-1], [1]), ([-1], [1]), ([-1], [1]),
  ([-1], [1]), ([-1], [1]), ([-1], [1]), ([-1], [1]), ([-1], [1]), ([-1], [1]), ([-2], [2]),
  ([-2], [2]), ([-2], [2]), ([-2], [2]), ([-2], [2]), ([-2], [2]), ([-3], [3])]

end Verif.Symm
