import Verif.Oper.Model
/-!
# The shipped operator recalculation tables, other classes

Generated by `scripts/gen_opers.py` from `c++/symmetry/nrg-recalc-*.hpp` and the
files they include from `c++/symmetry/coefnew`.
-/

namespace Verif.Oper
open Verif.Symm

/-- The label expressions in the operator tables of `DBLISOSZ`. -/
def labs_DBLISOSZ : List LabelExpr := [
  [.plus 0, .plus 0, .plus 2],
  [.plus (-1), .plus 0, .plus 1],
  [.plus 0, .plus 0, .plus 0],
  [.plus (-1), .plus 0, .plus (-1)],
  [.plus 0, .plus 0, .plus (-2)],
  [.plus (-1), .plus 0, .plus (-3)],
  [.plus 0, .plus (-1), .plus 1],
  [.plus (-1), .plus (-1), .plus 0],
  [.plus 0, .plus 1, .plus 1],
  [.plus (-1), .plus 1, .plus 0],
  [.plus 0, .plus (-1), .plus (-1)],
  [.plus (-1), .plus (-1), .plus (-2)],
  [.plus 0, .plus 1, .plus (-1)],
  [.plus (-1), .plus 1, .plus (-2)],
  [.plus (-2), .plus 0, .plus 0],
  [.plus 1, .plus 0, .plus 1],
  [.plus (-2), .plus 0, .plus (-2)],
  [.plus 1, .plus 0, .plus (-1)],
  [.plus (-2), .plus (-1), .plus (-1)],
  [.plus (-2), .plus 1, .plus (-1)],
  [.plus 1, .plus (-1), .plus 0],
  [.plus 1, .plus 1, .plus 0],
  [.plus (-1), .plus 0, .plus 3],
  [.plus (-1), .plus (-1), .plus 2],
  [.plus (-1), .plus 1, .plus 2],
  [.plus (-2), .plus 0, .plus 2],
  [.plus (-2), .plus (-1), .plus 1],
  [.plus (-2), .plus 1, .plus 1],
  [.plus 1, .plus 0, .plus (-3)],
  [.plus 1, .plus (-1), .plus (-2)],
  [.plus 1, .plus 1, .plus (-2)],
  [.plus 2, .plus 0, .plus 0],
  [.plus 2, .plus 0, .plus (-2)],
  [.plus 2, .plus (-1), .plus (-1)],
  [.plus 2, .plus 1, .plus (-1)],
  [.plus 1, .plus 0, .plus 3],
  [.plus 1, .plus (-1), .plus 2],
  [.plus 1, .plus 1, .plus 2],
  [.plus 2, .plus 0, .plus 2],
  [.plus 2, .plus (-1), .plus 1],
  [.plus 2, .plus 1, .plus 1],
  [.plus 0, .plus (-1), .plus (-3)],
  [.plus 0, .plus (-2), .plus 0],
  [.plus 0, .plus (-2), .plus (-2)],
  [.plus (-1), .plus (-2), .plus (-1)],
  [.plus 1, .plus (-2), .plus (-1)],
  [.plus 0, .plus (-1), .plus 3],
  [.plus 0, .plus (-2), .plus 2],
  [.plus (-1), .plus (-2), .plus 1],
  [.plus 1, .plus (-2), .plus 1],
  [.plus 0, .plus 1, .plus (-3)],
  [.plus 0, .plus 2, .plus 0],
  [.plus 0, .plus 2, .plus (-2)],
  [.plus (-1), .plus 2, .plus (-1)],
  [.plus 1, .plus 2, .plus (-1)],
  [.plus 0, .plus 1, .plus 3],
  [.plus 0, .plus 2, .plus 2],
  [.plus (-1), .plus 2, .plus 1],
  [.plus 1, .plus 2, .plus 1]]

/-- `recalc_doublet` in `nrg-recalc-DBLISOSZ.hpp:32-`, 2 channel(s): `dblisosz-2ch-doubletm0m.dat`, `dblisosz-2ch-doubletm0p.dat`, `dblisosz-2ch-doubletp0m.dat`, `dblisosz-2ch-doubletp0p.dat`, `dblisosz-2ch-doublet0mm.dat`, `dblisosz-2ch-doublet0mp.dat`, `dblisosz-2ch-doublet0pm.dat`, `dblisosz-2ch-doublet0pp.dat`. -/
def op_DBLISOSZ_2ch_doublet : OpTable where
  builtin := ⟨"DBLISOSZ", 2, fields_DBLISOSZ, tab_DBLISOSZ_2ch⟩
  kind := .doublet
  labs := labs_DBLISOSZ
  targets := [
    ⟨[.plus (-1), .plus 0, .plus (-1)], [2, 1, 1], some [
      ⟨1, 1, 0, 1, 0⟩, ⟨2, 2, 2, 3, 0⟩, ⟨3, 3, 2, 3, 0⟩, ⟨4, 4, 4, 5, 0⟩, ⟨5, 5, 6, 7, 1⟩,
      ⟨6, 6, 8, 9, 1⟩, ⟨7, 7, 10, 11, 1⟩, ⟨8, 8, 12, 13, 1⟩, ⟨9, 9, 1, 14, 1⟩, ⟨9, 10, 1, 2, 2⟩,
      ⟨10, 10, 15, 2, 3⟩, ⟨11, 11, 3, 16, 1⟩, ⟨11, 12, 3, 4, 2⟩, ⟨12, 12, 17, 4, 3⟩,
      ⟨13, 13, 7, 18, 0⟩, ⟨13, 15, 7, 10, 4⟩, ⟨14, 14, 9, 19, 0⟩, ⟨14, 16, 9, 12, 4⟩,
      ⟨15, 15, 20, 10, 5⟩, ⟨16, 16, 21, 12, 5⟩]⟩,
    ⟨[.plus (-1), .plus 0, .plus 1], [2, 1, -1], some [
      ⟨1, 1, 0, 22, 0⟩, ⟨2, 2, 2, 1, 0⟩, ⟨3, 3, 2, 1, 0⟩, ⟨4, 4, 4, 3, 0⟩, ⟨5, 5, 6, 23, 1⟩,
      ⟨6, 6, 8, 24, 1⟩, ⟨7, 7, 10, 7, 1⟩, ⟨8, 8, 12, 9, 1⟩, ⟨9, 9, 1, 25, 1⟩, ⟨9, 10, 1, 0, 2⟩,
      ⟨10, 10, 15, 0, 3⟩, ⟨11, 11, 3, 14, 1⟩, ⟨11, 12, 3, 2, 2⟩, ⟨12, 12, 17, 2, 3⟩,
      ⟨13, 13, 7, 26, 0⟩, ⟨13, 15, 7, 6, 4⟩, ⟨14, 14, 9, 27, 0⟩, ⟨14, 16, 9, 8, 4⟩,
      ⟨15, 15, 20, 6, 5⟩, ⟨16, 16, 21, 8, 5⟩]⟩,
    ⟨[.plus 1, .plus 0, .plus (-1)], [2, 1, 1], some [
      ⟨1, 1, 0, 15, 0⟩, ⟨2, 2, 2, 17, 0⟩, ⟨3, 3, 2, 17, 0⟩, ⟨4, 4, 4, 28, 0⟩, ⟨5, 5, 6, 20, 1⟩,
      ⟨6, 6, 8, 21, 1⟩, ⟨7, 7, 10, 29, 1⟩, ⟨8, 8, 12, 30, 1⟩, ⟨9, 9, 1, 2, 3⟩, ⟨10, 9, 15, 2, 4⟩,
      ⟨10, 10, 15, 31, 1⟩, ⟨11, 11, 3, 4, 3⟩, ⟨12, 11, 17, 4, 4⟩, ⟨12, 12, 17, 32, 1⟩,
      ⟨13, 13, 7, 10, 5⟩, ⟨14, 14, 9, 12, 5⟩, ⟨15, 13, 20, 10, 2⟩, ⟨15, 15, 20, 33, 0⟩,
      ⟨16, 14, 21, 12, 2⟩, ⟨16, 16, 21, 34, 0⟩]⟩,
    ⟨[.plus 1, .plus 0, .plus 1], [2, 1, -1], some [
      ⟨1, 1, 0, 35, 0⟩, ⟨2, 2, 2, 15, 0⟩, ⟨3, 3, 2, 15, 0⟩, ⟨4, 4, 4, 17, 0⟩, ⟨5, 5, 6, 36, 1⟩,
      ⟨6, 6, 8, 37, 1⟩, ⟨7, 7, 10, 20, 1⟩, ⟨8, 8, 12, 21, 1⟩, ⟨9, 9, 1, 0, 3⟩, ⟨10, 9, 15, 0, 4⟩,
      ⟨10, 10, 15, 38, 1⟩, ⟨11, 11, 3, 2, 3⟩, ⟨12, 11, 17, 2, 4⟩, ⟨12, 12, 17, 31, 1⟩,
      ⟨13, 13, 7, 6, 5⟩, ⟨14, 14, 9, 8, 5⟩, ⟨15, 13, 20, 6, 2⟩, ⟨15, 15, 20, 39, 0⟩,
      ⟨16, 14, 21, 8, 2⟩, ⟨16, 16, 21, 40, 0⟩]⟩,
    ⟨[.plus 0, .plus (-1), .plus (-1)], [1, 2, 1], some [
      ⟨1, 1, 0, 6, 0⟩, ⟨2, 2, 2, 10, 0⟩, ⟨3, 3, 2, 10, 0⟩, ⟨4, 4, 4, 41, 0⟩, ⟨5, 5, 6, 42, 1⟩,
      ⟨5, 6, 6, 2, 6⟩, ⟨6, 6, 8, 2, 7⟩, ⟨7, 7, 10, 43, 1⟩, ⟨7, 8, 10, 4, 6⟩, ⟨8, 8, 12, 4, 7⟩,
      ⟨9, 9, 1, 7, 1⟩, ⟨10, 10, 15, 20, 1⟩, ⟨11, 11, 3, 11, 1⟩, ⟨12, 12, 17, 29, 1⟩,
      ⟨13, 13, 7, 44, 0⟩, ⟨13, 14, 7, 3, 8⟩, ⟨14, 14, 9, 3, 9⟩, ⟨15, 15, 20, 45, 0⟩,
      ⟨15, 16, 20, 17, 8⟩, ⟨16, 16, 21, 17, 9⟩]⟩,
    ⟨[.plus 0, .plus (-1), .plus 1], [1, 2, -1], some [
      ⟨1, 1, 0, 46, 0⟩, ⟨2, 2, 2, 6, 0⟩, ⟨3, 3, 2, 6, 0⟩, ⟨4, 4, 4, 10, 0⟩, ⟨5, 5, 6, 47, 1⟩,
      ⟨5, 6, 6, 0, 6⟩, ⟨6, 6, 8, 0, 7⟩, ⟨7, 7, 10, 42, 1⟩, ⟨7, 8, 10, 2, 6⟩, ⟨8, 8, 12, 2, 7⟩,
      ⟨9, 9, 1, 23, 1⟩, ⟨10, 10, 15, 36, 1⟩, ⟨11, 11, 3, 7, 1⟩, ⟨12, 12, 17, 20, 1⟩,
      ⟨13, 13, 7, 48, 0⟩, ⟨13, 14, 7, 1, 8⟩, ⟨14, 14, 9, 1, 9⟩, ⟨15, 15, 20, 49, 0⟩,
      ⟨15, 16, 20, 15, 8⟩, ⟨16, 16, 21, 15, 9⟩]⟩,
    ⟨[.plus 0, .plus 1, .plus (-1)], [1, 2, 1], some [
      ⟨1, 1, 0, 8, 0⟩, ⟨2, 2, 2, 12, 0⟩, ⟨3, 3, 2, 12, 0⟩, ⟨4, 4, 4, 50, 0⟩, ⟨5, 5, 6, 2, 7⟩,
      ⟨6, 5, 8, 2, 8⟩, ⟨6, 6, 8, 51, 1⟩, ⟨7, 7, 10, 4, 7⟩, ⟨8, 7, 12, 4, 8⟩, ⟨8, 8, 12, 52, 1⟩,
      ⟨9, 9, 1, 9, 1⟩, ⟨10, 10, 15, 21, 1⟩, ⟨11, 11, 3, 13, 1⟩, ⟨12, 12, 17, 30, 1⟩,
      ⟨13, 13, 7, 3, 9⟩, ⟨14, 13, 9, 3, 6⟩, ⟨14, 14, 9, 53, 0⟩, ⟨15, 15, 20, 17, 9⟩,
      ⟨16, 15, 21, 17, 6⟩, ⟨16, 16, 21, 54, 0⟩]⟩,
    ⟨[.plus 0, .plus 1, .plus 1], [1, 2, -1], some [
      ⟨1, 1, 0, 55, 0⟩, ⟨2, 2, 2, 8, 0⟩, ⟨3, 3, 2, 8, 0⟩, ⟨4, 4, 4, 12, 0⟩, ⟨5, 5, 6, 0, 7⟩,
      ⟨6, 5, 8, 0, 8⟩, ⟨6, 6, 8, 56, 1⟩, ⟨7, 7, 10, 2, 7⟩, ⟨8, 7, 12, 2, 8⟩, ⟨8, 8, 12, 51, 1⟩,
      ⟨9, 9, 1, 24, 1⟩, ⟨10, 10, 15, 37, 1⟩, ⟨11, 11, 3, 9, 1⟩, ⟨12, 12, 17, 21, 1⟩,
      ⟨13, 13, 7, 1, 9⟩, ⟨14, 13, 9, 1, 6⟩, ⟨14, 14, 9, 57, 0⟩, ⟨15, 15, 20, 15, 9⟩,
      ⟨16, 15, 21, 15, 6⟩, ⟨16, 16, 21, 58, 0⟩]⟩]

/-- The label expressions in the operator tables of `DBLQSZ`. -/
def labs_DBLQSZ : List LabelExpr := [
  [.plus 1, .plus 1, .plus 0],
  [.plus 0, .plus 1, .plus 1],
  [.plus 1, .plus 0, .plus 1],
  [.plus 0, .plus 0, .plus 2],
  [.plus 1, .plus 0, .plus (-1)],
  [.plus 0, .plus 0, .plus 0],
  [.plus 1, .plus (-1), .plus 0],
  [.plus 0, .plus (-1), .plus 1],
  [.plus (-1), .plus 1, .plus 2],
  [.plus 0, .plus 1, .plus (-1)],
  [.plus (-1), .plus 1, .plus 0],
  [.plus (-1), .plus 0, .plus 3],
  [.plus (-1), .plus 0, .plus 1],
  [.plus 0, .plus 0, .plus (-2)],
  [.plus (-1), .plus 0, .plus (-1)],
  [.plus (-1), .plus (-1), .plus 2],
  [.plus 0, .plus (-1), .plus (-1)],
  [.plus (-1), .plus (-1), .plus 0],
  [.plus (-2), .plus 1, .plus 1],
  [.plus (-2), .plus 0, .plus 2],
  [.plus (-2), .plus 0, .plus 0],
  [.plus (-2), .plus (-1), .plus 1],
  [.plus (-1), .plus 1, .plus (-2)],
  [.plus (-1), .plus 0, .plus (-3)],
  [.plus (-1), .plus (-1), .plus (-2)],
  [.plus (-2), .plus 1, .plus (-1)],
  [.plus (-2), .plus 0, .plus (-2)],
  [.plus (-2), .plus (-1), .plus (-1)],
  [.plus 1, .plus (-1), .plus 2],
  [.plus 1, .plus (-2), .plus 1],
  [.plus 0, .plus (-1), .plus 3],
  [.plus 0, .plus (-2), .plus 2],
  [.plus 0, .plus (-2), .plus 0],
  [.plus (-1), .plus (-2), .plus 1],
  [.plus 1, .plus (-1), .plus (-2)],
  [.plus 1, .plus (-2), .plus (-1)],
  [.plus 0, .plus (-1), .plus (-3)],
  [.plus 0, .plus (-2), .plus (-2)],
  [.plus (-1), .plus (-2), .plus (-1)]]

/-- `recalc_doublet` in `nrg-recalc-DBLQSZ.hpp:32-`, 2 channel(s): `dblqsz-2ch-doubletm0p.dat`, `dblqsz-2ch-doubletm0m.dat`, `dblqsz-2ch-doublet0mp.dat`, `dblqsz-2ch-doublet0mm.dat`. -/
def op_DBLQSZ_2ch_doublet : OpTable where
  builtin := ⟨"DBLQSZ", 2, fields_DBLQSZ, tab_DBLQSZ_2ch⟩
  kind := .doublet
  labs := labs_DBLQSZ
  targets := [
    ⟨[.plus (-1), .plus 0, .plus 1], [1, 0, -1], some [
      ⟨1, 1, 0, 1, 0⟩, ⟨2, 2, 2, 3, 1⟩, ⟨3, 3, 4, 5, 1⟩, ⟨4, 4, 6, 7, 0⟩, ⟨5, 5, 1, 8, 1⟩,
      ⟨6, 6, 9, 10, 1⟩, ⟨7, 7, 3, 11, 0⟩, ⟨8, 8, 5, 12, 0⟩, ⟨9, 9, 5, 12, 0⟩,
      ⟨10, 10, 13, 14, 0⟩, ⟨11, 11, 7, 15, 1⟩, ⟨12, 12, 16, 17, 1⟩, ⟨13, 13, 10, 18, 0⟩,
      ⟨14, 14, 12, 19, 1⟩, ⟨15, 15, 14, 20, 1⟩, ⟨16, 16, 17, 21, 0⟩]⟩,
    ⟨[.plus (-1), .plus 0, .plus (-1)], [1, 0, 1], some [
      ⟨1, 1, 0, 9, 0⟩, ⟨2, 2, 2, 5, 1⟩, ⟨3, 3, 4, 13, 1⟩, ⟨4, 4, 6, 16, 0⟩, ⟨5, 5, 1, 10, 1⟩,
      ⟨6, 6, 9, 22, 1⟩, ⟨7, 7, 3, 12, 0⟩, ⟨8, 8, 5, 14, 0⟩, ⟨9, 9, 5, 14, 0⟩,
      ⟨10, 10, 13, 23, 0⟩, ⟨11, 11, 7, 17, 1⟩, ⟨12, 12, 16, 24, 1⟩, ⟨13, 13, 10, 25, 0⟩,
      ⟨14, 14, 12, 20, 1⟩, ⟨15, 15, 14, 26, 1⟩, ⟨16, 16, 17, 27, 0⟩]⟩,
    ⟨[.plus 0, .plus (-1), .plus 1], [0, 1, -1], some [
      ⟨1, 1, 0, 2, 0⟩, ⟨2, 2, 2, 28, 1⟩, ⟨3, 3, 4, 6, 1⟩, ⟨4, 4, 6, 29, 0⟩, ⟨5, 5, 1, 3, 1⟩,
      ⟨6, 6, 9, 5, 1⟩, ⟨7, 7, 3, 30, 0⟩, ⟨8, 8, 5, 7, 0⟩, ⟨9, 9, 5, 7, 0⟩, ⟨10, 10, 13, 16, 0⟩,
      ⟨11, 11, 7, 31, 1⟩, ⟨12, 12, 16, 32, 1⟩, ⟨13, 13, 10, 12, 0⟩, ⟨14, 14, 12, 15, 1⟩,
      ⟨15, 15, 14, 17, 1⟩, ⟨16, 16, 17, 33, 0⟩]⟩,
    ⟨[.plus 0, .plus (-1), .plus (-1)], [0, 1, 1], some [
      ⟨1, 1, 0, 4, 0⟩, ⟨2, 2, 2, 6, 1⟩, ⟨3, 3, 4, 34, 1⟩, ⟨4, 4, 6, 35, 0⟩, ⟨5, 5, 1, 5, 1⟩,
      ⟨6, 6, 9, 13, 1⟩, ⟨7, 7, 3, 7, 0⟩, ⟨8, 8, 5, 16, 0⟩, ⟨9, 9, 5, 16, 0⟩, ⟨10, 10, 13, 36, 0⟩,
      ⟨11, 11, 7, 32, 1⟩, ⟨12, 12, 16, 37, 1⟩, ⟨13, 13, 10, 14, 0⟩, ⟨14, 14, 12, 17, 1⟩,
      ⟨15, 15, 14, 24, 1⟩, ⟨16, 16, 17, 38, 0⟩]⟩]

/-- The label expressions in the operator tables of `DBLSU2`. -/
def labs_DBLSU2 : List LabelExpr := [
  [.plus 0, .plus 0],
  [.plus (-1), .plus 0],
  [.plus 0, .plus (-1)],
  [.plus (-1), .plus (-1)],
  [.plus 0, .plus 1],
  [.plus (-1), .plus 1],
  [.plus (-2), .plus 0],
  [.plus 1, .plus 0],
  [.plus (-2), .plus (-1)],
  [.plus (-2), .plus 1],
  [.plus 1, .plus (-1)],
  [.plus 1, .plus 1],
  [.plus 2, .plus 0],
  [.plus 2, .plus (-1)],
  [.plus 2, .plus 1],
  [.plus 0, .plus (-2)],
  [.plus (-1), .plus (-2)],
  [.plus 1, .plus (-2)],
  [.plus 0, .plus 2],
  [.plus (-1), .plus 2],
  [.plus 1, .plus 2]]

/-- `recalc_doublet` in `nrg-recalc-DBLSU2.hpp:32-`, 2 channel(s): `dblsu2-2ch-doubletm0.dat`, `dblsu2-2ch-doubletp0.dat`, `dblsu2-2ch-doublet0m.dat`, `dblsu2-2ch-doublet0p.dat`. -/
def op_DBLSU2_2ch_doublet : OpTable where
  builtin := ⟨"DBLSU2", 2, fields_DBLSU2, tab_DBLSU2_2ch⟩
  kind := .doublet
  labs := labs_DBLSU2
  targets := [
    ⟨[.plus (-1), .plus 0], [2, 0], some [
      ⟨1, 1, 0, 1, 0⟩, ⟨2, 2, 0, 1, 0⟩, ⟨3, 3, 0, 1, 0⟩, ⟨4, 4, 0, 1, 0⟩, ⟨5, 5, 2, 3, 1⟩,
      ⟨6, 6, 4, 5, 1⟩, ⟨7, 7, 2, 3, 1⟩, ⟨8, 8, 4, 5, 1⟩, ⟨9, 9, 1, 6, 1⟩, ⟨9, 10, 1, 0, 2⟩,
      ⟨10, 10, 7, 0, 3⟩, ⟨11, 11, 1, 6, 1⟩, ⟨11, 12, 1, 0, 2⟩, ⟨12, 12, 7, 0, 3⟩,
      ⟨13, 13, 3, 8, 0⟩, ⟨13, 15, 3, 2, 4⟩, ⟨14, 14, 5, 9, 0⟩, ⟨14, 16, 5, 4, 4⟩,
      ⟨15, 15, 10, 2, 5⟩, ⟨16, 16, 11, 4, 5⟩]⟩,
    ⟨[.plus 1, .plus 0], [2, 0], some [
      ⟨1, 1, 0, 7, 0⟩, ⟨2, 2, 0, 7, 0⟩, ⟨3, 3, 0, 7, 0⟩, ⟨4, 4, 0, 7, 0⟩, ⟨5, 5, 2, 10, 1⟩,
      ⟨6, 6, 4, 11, 1⟩, ⟨7, 7, 2, 10, 1⟩, ⟨8, 8, 4, 11, 1⟩, ⟨9, 9, 1, 0, 3⟩, ⟨10, 9, 7, 0, 4⟩,
      ⟨10, 10, 7, 12, 1⟩, ⟨11, 11, 1, 0, 3⟩, ⟨12, 11, 7, 0, 4⟩, ⟨12, 12, 7, 12, 1⟩,
      ⟨13, 13, 3, 2, 5⟩, ⟨14, 14, 5, 4, 5⟩, ⟨15, 13, 10, 2, 2⟩, ⟨15, 15, 10, 13, 0⟩,
      ⟨16, 14, 11, 4, 2⟩, ⟨16, 16, 11, 14, 0⟩]⟩,
    ⟨[.plus 0, .plus (-1)], [0, 2], some [
      ⟨1, 1, 0, 2, 0⟩, ⟨2, 2, 0, 2, 0⟩, ⟨3, 3, 0, 2, 0⟩, ⟨4, 4, 0, 2, 0⟩, ⟨5, 5, 2, 15, 1⟩,
      ⟨5, 6, 2, 0, 6⟩, ⟨6, 6, 4, 0, 7⟩, ⟨7, 7, 2, 15, 1⟩, ⟨7, 8, 2, 0, 6⟩, ⟨8, 8, 4, 0, 7⟩,
      ⟨9, 9, 1, 3, 1⟩, ⟨10, 10, 7, 10, 1⟩, ⟨11, 11, 1, 3, 1⟩, ⟨12, 12, 7, 10, 1⟩,
      ⟨13, 13, 3, 16, 0⟩, ⟨13, 14, 3, 1, 8⟩, ⟨14, 14, 5, 1, 9⟩, ⟨15, 15, 10, 17, 0⟩,
      ⟨15, 16, 10, 7, 8⟩, ⟨16, 16, 11, 7, 9⟩]⟩,
    ⟨[.plus 0, .plus 1], [0, 2], some [
      ⟨1, 1, 0, 4, 0⟩, ⟨2, 2, 0, 4, 0⟩, ⟨3, 3, 0, 4, 0⟩, ⟨4, 4, 0, 4, 0⟩, ⟨5, 5, 2, 0, 7⟩,
      ⟨6, 5, 4, 0, 8⟩, ⟨6, 6, 4, 18, 1⟩, ⟨7, 7, 2, 0, 7⟩, ⟨8, 7, 4, 0, 8⟩, ⟨8, 8, 4, 18, 1⟩,
      ⟨9, 9, 1, 5, 1⟩, ⟨10, 10, 7, 11, 1⟩, ⟨11, 11, 1, 5, 1⟩, ⟨12, 12, 7, 11, 1⟩,
      ⟨13, 13, 3, 1, 9⟩, ⟨14, 13, 5, 1, 6⟩, ⟨14, 14, 5, 19, 0⟩, ⟨15, 15, 10, 7, 9⟩,
      ⟨16, 15, 11, 7, 6⟩, ⟨16, 16, 11, 20, 0⟩]⟩]

/-- The label expressions in the operator tables of `ISO`. -/
def labs_ISO : List LabelExpr := [
  [.plus (-1), .plus 0],
  [.plus (-2), .plus 1],
  [.plus 0, .plus 1],
  [.plus 1, .plus 0],
  [.plus 0, .plus (-1)],
  [.plus (-1), .plus 2],
  [.plus (-2), .plus (-1)],
  [.plus (-1), .plus (-2)],
  [.plus 2, .plus 1],
  [.plus 1, .plus 2],
  [.plus 2, .plus (-1)],
  [.plus 1, .plus (-2)],
  [.plus (-2), .plus 0],
  [.plus (-3), .plus 1],
  [.plus (-1), .plus 1],
  [.plus 0, .plus 0],
  [.plus 1, .plus 1],
  [.plus 2, .plus 0],
  [.plus (-1), .plus (-1)],
  [.plus 1, .plus (-1)],
  [.plus (-2), .plus 2],
  [.plus 0, .plus 2],
  [.plus 0, .plus (-2)],
  [.plus (-1), .plus 3],
  [.plus (-3), .plus (-1)],
  [.plus (-2), .plus (-2)],
  [.plus (-1), .plus (-3)],
  [.plus 3, .plus 1],
  [.plus 2, .plus 2],
  [.plus 1, .plus 3],
  [.plus 3, .plus (-1)],
  [.plus 2, .plus (-2)],
  [.plus 1, .plus (-3)],
  [.plus 0, .plus 3],
  [.plus 0, .plus (-3)],
  [.plus 0, .plus 4],
  [.plus 0, .plus (-4)]]

/-- `recalc_doublet` in `nrg-recalc-ISO.hpp:32-`, 1 channel(s): `iso-1ch-doubletmp.dat`, `iso-1ch-doubletmm.dat`, `iso-1ch-doubletpp.dat`, `iso-1ch-doubletpm.dat`. -/
def op_ISO_1ch_doublet : OpTable where
  builtin := ⟨"ISO", 1, fields_ISO, tab_ISO_1ch⟩
  kind := .doublet
  labs := labs_ISO
  targets := [
    ⟨[.plus (-1), .plus 1], [2, 2], some [
      ⟨1, 1, 0, 1, 0⟩, ⟨1, 2, 0, 2, 1⟩, ⟨2, 2, 3, 2, 2⟩, ⟨3, 3, 4, 0, 3⟩, ⟨4, 3, 2, 0, 4⟩,
      ⟨4, 4, 2, 5, 5⟩]⟩,
    ⟨[.plus (-1), .plus (-1)], [2, 2], some [
      ⟨1, 1, 0, 6, 0⟩, ⟨1, 2, 0, 4, 1⟩, ⟨2, 2, 3, 4, 2⟩, ⟨3, 3, 4, 7, 5⟩, ⟨3, 4, 4, 0, 6⟩,
      ⟨4, 4, 2, 0, 3⟩]⟩,
    ⟨[.plus 1, .plus 1], [2, 2], some [
      ⟨1, 1, 0, 2, 2⟩, ⟨2, 1, 3, 2, 7⟩, ⟨2, 2, 3, 8, 0⟩, ⟨3, 3, 4, 3, 3⟩, ⟨4, 3, 2, 3, 4⟩,
      ⟨4, 4, 2, 9, 5⟩]⟩,
    ⟨[.plus 1, .plus (-1)], [2, 2], some [
      ⟨1, 1, 0, 4, 2⟩, ⟨2, 1, 3, 4, 7⟩, ⟨2, 2, 3, 10, 0⟩, ⟨3, 3, 4, 11, 5⟩, ⟨3, 4, 4, 3, 6⟩,
      ⟨4, 4, 2, 3, 3⟩]⟩]

/-- `recalc_doublet` in `nrg-recalc-ISO.hpp:32-`, 2 channel(s): `iso-2ch-doubletmp.dat`, `iso-2ch-doubletmm.dat`, `iso-2ch-doubletpp.dat`, `iso-2ch-doubletpm.dat`. -/
def op_ISO_2ch_doublet : OpTable where
  builtin := ⟨"ISO", 2, fields_ISO, tab_ISO_2ch⟩
  kind := .doublet
  labs := labs_ISO
  targets := [
    ⟨[.plus (-1), .plus 1], [2, 2], some [
      ⟨1, 1, 12, 13, 0⟩, ⟨1, 2, 12, 14, 8⟩, ⟨2, 2, 15, 14, 9⟩, ⟨2, 3, 15, 16, 10⟩,
      ⟨3, 3, 17, 16, 11⟩, ⟨4, 4, 18, 12, 3⟩, ⟨4, 5, 18, 15, 12⟩, ⟨5, 5, 19, 15, 13⟩,
      ⟨6, 4, 14, 12, 4⟩, ⟨6, 5, 14, 15, 14⟩, ⟨6, 6, 14, 20, 5⟩, ⟨6, 7, 14, 21, 7⟩,
      ⟨7, 5, 16, 15, 15⟩, ⟨7, 7, 16, 21, 16⟩, ⟨8, 8, 18, 12, 3⟩, ⟨8, 9, 18, 15, 12⟩,
      ⟨9, 9, 19, 15, 13⟩, ⟨10, 8, 14, 12, 4⟩, ⟨10, 9, 14, 15, 14⟩, ⟨10, 10, 14, 20, 5⟩,
      ⟨10, 11, 14, 21, 7⟩, ⟨11, 9, 16, 15, 15⟩, ⟨11, 11, 16, 21, 16⟩, ⟨12, 12, 22, 18, 17⟩,
      ⟨13, 12, 15, 18, 18⟩, ⟨13, 13, 15, 14, 19⟩, ⟨14, 13, 21, 14, 20⟩, ⟨14, 14, 21, 23, 0⟩,
      ⟨15, 15, 15, 14, 0⟩, ⟨16, 16, 15, 14, 0⟩]⟩,
    ⟨[.plus (-1), .plus (-1)], [2, 2], some [
      ⟨1, 1, 12, 24, 0⟩, ⟨1, 2, 12, 18, 8⟩, ⟨2, 2, 15, 18, 9⟩, ⟨2, 3, 15, 19, 10⟩,
      ⟨3, 3, 17, 19, 11⟩, ⟨4, 4, 18, 25, 5⟩, ⟨4, 5, 18, 22, 7⟩, ⟨4, 6, 18, 12, 6⟩,
      ⟨4, 7, 18, 15, 21⟩, ⟨5, 5, 19, 22, 22⟩, ⟨5, 7, 19, 15, 23⟩, ⟨6, 6, 14, 12, 3⟩,
      ⟨6, 7, 14, 15, 12⟩, ⟨7, 7, 16, 15, 13⟩, ⟨8, 8, 18, 25, 5⟩, ⟨8, 9, 18, 22, 7⟩,
      ⟨8, 10, 18, 12, 6⟩, ⟨8, 11, 18, 15, 21⟩, ⟨9, 9, 19, 22, 22⟩, ⟨9, 11, 19, 15, 23⟩,
      ⟨10, 10, 14, 12, 3⟩, ⟨10, 11, 14, 15, 12⟩, ⟨11, 11, 16, 15, 13⟩, ⟨12, 12, 22, 26, 0⟩,
      ⟨12, 13, 22, 18, 24⟩, ⟨13, 13, 15, 18, 25⟩, ⟨13, 14, 15, 14, 26⟩, ⟨14, 14, 21, 14, 27⟩,
      ⟨15, 15, 15, 18, 0⟩, ⟨16, 16, 15, 18, 0⟩]⟩,
    ⟨[.plus 1, .plus 1], [2, 2], some [
      ⟨1, 1, 12, 14, 28⟩, ⟨2, 1, 15, 14, 29⟩, ⟨2, 2, 15, 16, 30⟩, ⟨3, 2, 17, 16, 31⟩,
      ⟨3, 3, 17, 27, 0⟩, ⟨4, 4, 18, 15, 13⟩, ⟨5, 4, 19, 15, 32⟩, ⟨5, 5, 19, 17, 3⟩,
      ⟨6, 4, 14, 15, 15⟩, ⟨6, 6, 14, 21, 22⟩, ⟨7, 4, 16, 15, 21⟩, ⟨7, 5, 16, 17, 4⟩,
      ⟨7, 6, 16, 21, 1⟩, ⟨7, 7, 16, 28, 5⟩, ⟨8, 8, 18, 15, 13⟩, ⟨9, 8, 19, 15, 32⟩,
      ⟨9, 9, 19, 17, 3⟩, ⟨10, 8, 14, 15, 15⟩, ⟨10, 10, 14, 21, 22⟩, ⟨11, 8, 16, 15, 21⟩,
      ⟨11, 9, 16, 17, 4⟩, ⟨11, 10, 16, 21, 1⟩, ⟨11, 11, 16, 28, 5⟩, ⟨12, 12, 22, 19, 17⟩,
      ⟨13, 12, 15, 19, 18⟩, ⟨13, 13, 15, 16, 19⟩, ⟨14, 13, 21, 16, 20⟩, ⟨14, 14, 21, 29, 0⟩,
      ⟨15, 15, 15, 16, 0⟩, ⟨16, 16, 15, 16, 0⟩]⟩,
    ⟨[.plus 1, .plus (-1)], [2, 2], some [
      ⟨1, 1, 12, 18, 28⟩, ⟨2, 1, 15, 18, 29⟩, ⟨2, 2, 15, 19, 30⟩, ⟨3, 2, 17, 19, 31⟩,
      ⟨3, 3, 17, 30, 0⟩, ⟨4, 4, 18, 22, 22⟩, ⟨4, 6, 18, 15, 23⟩, ⟨5, 4, 19, 22, 1⟩,
      ⟨5, 5, 19, 31, 5⟩, ⟨5, 6, 19, 15, 14⟩, ⟨5, 7, 19, 17, 6⟩, ⟨6, 6, 14, 15, 13⟩,
      ⟨7, 6, 16, 15, 32⟩, ⟨7, 7, 16, 17, 3⟩, ⟨8, 8, 18, 22, 22⟩, ⟨8, 10, 18, 15, 23⟩,
      ⟨9, 8, 19, 22, 1⟩, ⟨9, 9, 19, 31, 5⟩, ⟨9, 10, 19, 15, 14⟩, ⟨9, 11, 19, 17, 6⟩,
      ⟨10, 10, 14, 15, 13⟩, ⟨11, 10, 16, 15, 32⟩, ⟨11, 11, 16, 17, 3⟩, ⟨12, 12, 22, 32, 0⟩,
      ⟨12, 13, 22, 19, 24⟩, ⟨13, 13, 15, 19, 25⟩, ⟨13, 14, 15, 16, 26⟩, ⟨14, 14, 21, 16, 27⟩,
      ⟨15, 15, 15, 19, 0⟩, ⟨16, 16, 15, 19, 0⟩]⟩]

/-- `recalc_doublet` in `nrg-recalc-ISO.hpp:32-`, 3 channel(s). -/
def op_ISO_3ch_doublet : OpTable where
  builtin := ⟨"ISO", 3, fields_ISO, tab_ISO_3ch⟩
  kind := .doublet
  labs := labs_ISO
  targets := [
    ⟨[.plus (-1), .plus 1], [2, 2], none⟩,
    ⟨[.plus (-1), .plus (-1)], [2, 2], none⟩,
    ⟨[.plus 1, .plus 1], [2, 2], none⟩,
    ⟨[.plus 1, .plus (-1)], [2, 2], none⟩]

/-- `recalc_triplet` in `nrg-recalc-ISO.hpp:429-`, 1 channel(s): `iso-1ch-triplets.dat`, `iso-1ch-tripletp.dat`, `iso-1ch-tripletm.dat`. -/
def op_ISO_1ch_triplet : OpTable where
  builtin := ⟨"ISO", 1, fields_ISO, tab_ISO_1ch⟩
  kind := .triplet
  labs := labs_ISO
  targets := [
    ⟨[.plus 0, .plus 0], [1, 3], some [
      ⟨1, 1, 0, 0, 0⟩, ⟨2, 2, 3, 3, 0⟩, ⟨3, 3, 4, 4, 17⟩, ⟨3, 4, 4, 2, 26⟩, ⟨4, 3, 2, 4, 18⟩,
      ⟨4, 4, 2, 2, 33⟩]⟩,
    ⟨[.plus 0, .plus 2], [1, 3], some [
      ⟨1, 1, 0, 5, 0⟩, ⟨2, 2, 3, 9, 0⟩, ⟨3, 3, 4, 2, 34⟩, ⟨4, 3, 2, 2, 20⟩, ⟨4, 4, 2, 33, 0⟩]⟩,
    ⟨[.plus 0, .plus (-2)], [1, 3], some [
      ⟨1, 1, 0, 7, 0⟩, ⟨2, 2, 3, 11, 0⟩, ⟨3, 3, 4, 34, 0⟩, ⟨3, 4, 4, 4, 24⟩, ⟨4, 4, 2, 4, 35⟩]⟩]

/-- `recalc_triplet` in `nrg-recalc-ISO.hpp:429-`, 2 channel(s): `iso-2ch-triplets.dat`, `iso-2ch-tripletp.dat`, `iso-2ch-tripletm.dat`. -/
def op_ISO_2ch_triplet : OpTable where
  builtin := ⟨"ISO", 2, fields_ISO, tab_ISO_2ch⟩
  kind := .triplet
  labs := labs_ISO
  targets := [
    ⟨[.plus 0, .plus 0], [1, 3], some [
      ⟨1, 1, 12, 12, 0⟩, ⟨2, 2, 15, 15, 0⟩, ⟨3, 3, 17, 17, 0⟩, ⟨4, 4, 18, 18, 17⟩,
      ⟨4, 6, 18, 14, 26⟩, ⟨5, 5, 19, 19, 17⟩, ⟨5, 7, 19, 16, 26⟩, ⟨6, 4, 14, 18, 18⟩,
      ⟨6, 6, 14, 14, 36⟩, ⟨7, 5, 16, 19, 18⟩, ⟨7, 7, 16, 16, 36⟩, ⟨8, 8, 18, 18, 17⟩,
      ⟨8, 10, 18, 14, 26⟩, ⟨9, 9, 19, 19, 17⟩, ⟨9, 11, 19, 16, 26⟩, ⟨10, 8, 14, 18, 18⟩,
      ⟨10, 10, 14, 14, 36⟩, ⟨11, 9, 16, 19, 18⟩, ⟨11, 11, 16, 16, 36⟩, ⟨12, 12, 22, 22, 37⟩,
      ⟨12, 13, 22, 15, 38⟩, ⟨13, 12, 15, 22, 39⟩, ⟨13, 13, 15, 15, 40⟩, ⟨13, 14, 15, 21, 41⟩,
      ⟨14, 13, 21, 15, 42⟩, ⟨14, 14, 21, 21, 43⟩, ⟨15, 15, 15, 15, 0⟩, ⟨16, 16, 15, 15, 0⟩]⟩,
    ⟨[.plus 0, .plus 2], [1, 3], some [
      ⟨1, 1, 12, 20, 0⟩, ⟨2, 2, 15, 21, 0⟩, ⟨3, 3, 17, 28, 0⟩, ⟨4, 4, 18, 14, 34⟩,
      ⟨5, 5, 19, 16, 34⟩, ⟨6, 4, 14, 14, 20⟩, ⟨6, 6, 14, 23, 0⟩, ⟨7, 5, 16, 16, 20⟩,
      ⟨7, 7, 16, 29, 0⟩, ⟨8, 8, 18, 14, 34⟩, ⟨9, 9, 19, 16, 34⟩, ⟨10, 8, 14, 14, 20⟩,
      ⟨10, 10, 14, 23, 0⟩, ⟨11, 9, 16, 16, 20⟩, ⟨11, 11, 16, 29, 0⟩, ⟨12, 12, 22, 15, 44⟩,
      ⟨13, 12, 15, 15, 45⟩, ⟨13, 13, 15, 21, 43⟩, ⟨14, 12, 21, 15, 46⟩, ⟨14, 13, 21, 21, 47⟩,
      ⟨14, 14, 21, 35, 0⟩, ⟨15, 15, 15, 21, 0⟩, ⟨16, 16, 15, 21, 0⟩]⟩,
    ⟨[.plus 0, .plus (-2)], [1, 3], some [
      ⟨1, 1, 12, 25, 0⟩, ⟨2, 2, 15, 22, 0⟩, ⟨3, 3, 17, 31, 0⟩, ⟨4, 4, 18, 26, 0⟩,
      ⟨4, 6, 18, 18, 24⟩, ⟨5, 5, 19, 32, 0⟩, ⟨5, 7, 19, 19, 24⟩, ⟨6, 6, 14, 18, 48⟩,
      ⟨7, 7, 16, 19, 49⟩, ⟨8, 8, 18, 26, 0⟩, ⟨8, 10, 18, 18, 24⟩, ⟨9, 9, 19, 32, 0⟩,
      ⟨9, 11, 19, 19, 24⟩, ⟨10, 10, 14, 18, 48⟩, ⟨11, 11, 16, 19, 49⟩, ⟨12, 12, 22, 36, 0⟩,
      ⟨12, 13, 22, 22, 50⟩, ⟨12, 14, 22, 15, 51⟩, ⟨13, 13, 15, 22, 37⟩, ⟨13, 14, 15, 15, 38⟩,
      ⟨14, 14, 21, 15, 44⟩, ⟨15, 15, 15, 22, 0⟩, ⟨16, 16, 15, 22, 0⟩]⟩]

/-- `recalc_triplet` in `nrg-recalc-ISO.hpp:429-`, 3 channel(s). -/
def op_ISO_3ch_triplet : OpTable where
  builtin := ⟨"ISO", 3, fields_ISO, tab_ISO_3ch⟩
  kind := .triplet
  labs := labs_ISO
  targets := [
    ⟨[.plus 0, .plus 0], [1, 3], none⟩,
    ⟨[.plus 0, .plus 2], [1, 3], none⟩,
    ⟨[.plus 0, .plus (-2)], [1, 3], none⟩]

/-- The label expressions in the operator tables of `ISO2`. -/
def labs_ISO2 : List LabelExpr := [
  [.plus (-1), .plus 0],
  [.plus (-2), .plus 1],
  [.plus 0, .plus 1],
  [.plus 1, .plus 0],
  [.plus 0, .plus (-1)],
  [.plus (-1), .plus 2],
  [.plus (-2), .plus (-1)],
  [.plus (-1), .plus (-2)],
  [.plus 2, .plus 1],
  [.plus 1, .plus 2],
  [.plus 2, .plus (-1)],
  [.plus 1, .plus (-2)],
  [.plus (-2), .plus 0],
  [.plus (-3), .plus 1],
  [.plus (-1), .plus 1],
  [.plus 0, .plus 0],
  [.plus 1, .plus 1],
  [.plus 2, .plus 0],
  [.plus (-1), .plus (-1)],
  [.plus 1, .plus (-1)],
  [.plus (-2), .plus 2],
  [.plus 0, .plus 2],
  [.plus 0, .plus (-2)],
  [.plus (-1), .plus 3],
  [.plus (-3), .plus (-1)],
  [.plus (-2), .plus (-2)],
  [.plus (-1), .plus (-3)],
  [.plus 3, .plus 1],
  [.plus 2, .plus 2],
  [.plus 1, .plus 3],
  [.plus 3, .plus (-1)],
  [.plus 2, .plus (-2)],
  [.plus 1, .plus (-3)],
  [.plus 0, .plus 3],
  [.plus 0, .plus (-3)],
  [.plus 0, .plus 4],
  [.plus 0, .plus (-4)]]

/-- `recalc_doublet` in `nrg-recalc-ISO2.hpp:33-`, 1 channel(s): `iso2-1ch-doubletmp.dat`, `iso2-1ch-doubletmm.dat`, `iso2-1ch-doubletpp.dat`, `iso2-1ch-doubletpm.dat`. -/
def op_ISO2_1ch_doublet : OpTable where
  builtin := ⟨"ISO2", 1, fields_ISO, tab_ISO2_1ch⟩
  kind := .doublet
  labs := labs_ISO2
  targets := [
    ⟨[.plus (-1), .plus 1], [2, 2], some [
      ⟨1, 1, 0, 1, 0⟩, ⟨1, 2, 0, 2, 1⟩, ⟨2, 2, 3, 2, 2⟩, ⟨3, 3, 4, 0, 3⟩, ⟨4, 3, 2, 0, 4⟩,
      ⟨4, 4, 2, 5, 5⟩]⟩,
    ⟨[.plus (-1), .plus (-1)], [2, 2], some [
      ⟨1, 1, 0, 6, 0⟩, ⟨1, 2, 0, 4, 1⟩, ⟨2, 2, 3, 4, 2⟩, ⟨3, 3, 4, 7, 5⟩, ⟨3, 4, 4, 0, 6⟩,
      ⟨4, 4, 2, 0, 3⟩]⟩,
    ⟨[.plus 1, .plus 1], [2, 2], some [
      ⟨1, 1, 0, 2, 2⟩, ⟨2, 1, 3, 2, 7⟩, ⟨2, 2, 3, 8, 0⟩, ⟨3, 3, 4, 3, 3⟩, ⟨4, 3, 2, 3, 4⟩,
      ⟨4, 4, 2, 9, 5⟩]⟩,
    ⟨[.plus 1, .plus (-1)], [2, 2], some [
      ⟨1, 1, 0, 4, 2⟩, ⟨2, 1, 3, 4, 7⟩, ⟨2, 2, 3, 10, 0⟩, ⟨3, 3, 4, 11, 5⟩, ⟨3, 4, 4, 3, 6⟩,
      ⟨4, 4, 2, 3, 3⟩]⟩]

/-- `recalc_doublet` in `nrg-recalc-ISO2.hpp:33-`, 2 channel(s): `iso2-2ch-doubletmp.dat`, `iso2-2ch-doubletmm.dat`, `iso2-2ch-doubletpp.dat`, `iso2-2ch-doubletpm.dat`. -/
def op_ISO2_2ch_doublet : OpTable where
  builtin := ⟨"ISO2", 2, fields_ISO, tab_ISO2_2ch⟩
  kind := .doublet
  labs := labs_ISO2
  targets := [
    ⟨[.plus (-1), .plus 1], [2, 2], some [
      ⟨1, 1, 12, 13, 0⟩, ⟨1, 2, 12, 14, 8⟩, ⟨2, 2, 15, 14, 9⟩, ⟨2, 3, 15, 16, 10⟩,
      ⟨3, 3, 17, 16, 11⟩, ⟨4, 4, 18, 12, 3⟩, ⟨4, 5, 18, 15, 12⟩, ⟨5, 5, 19, 15, 13⟩,
      ⟨6, 4, 14, 12, 4⟩, ⟨6, 5, 14, 15, 14⟩, ⟨6, 6, 14, 20, 5⟩, ⟨6, 7, 14, 21, 7⟩,
      ⟨7, 5, 16, 15, 15⟩, ⟨7, 7, 16, 21, 16⟩, ⟨8, 8, 18, 12, 3⟩, ⟨8, 9, 18, 15, 12⟩,
      ⟨9, 9, 19, 15, 13⟩, ⟨10, 8, 14, 12, 4⟩, ⟨10, 9, 14, 15, 14⟩, ⟨10, 10, 14, 20, 5⟩,
      ⟨10, 11, 14, 21, 7⟩, ⟨11, 9, 16, 15, 15⟩, ⟨11, 11, 16, 21, 16⟩, ⟨12, 12, 22, 18, 17⟩,
      ⟨13, 12, 15, 18, 18⟩, ⟨13, 13, 15, 14, 19⟩, ⟨14, 13, 21, 14, 20⟩, ⟨14, 14, 21, 23, 0⟩,
      ⟨15, 15, 15, 14, 0⟩, ⟨16, 16, 15, 14, 0⟩]⟩,
    ⟨[.plus (-1), .plus (-1)], [2, 2], some [
      ⟨1, 1, 12, 24, 0⟩, ⟨1, 2, 12, 18, 8⟩, ⟨2, 2, 15, 18, 9⟩, ⟨2, 3, 15, 19, 10⟩,
      ⟨3, 3, 17, 19, 11⟩, ⟨4, 4, 18, 25, 5⟩, ⟨4, 5, 18, 22, 7⟩, ⟨4, 6, 18, 12, 6⟩,
      ⟨4, 7, 18, 15, 21⟩, ⟨5, 5, 19, 22, 16⟩, ⟨5, 7, 19, 15, 22⟩, ⟨6, 6, 14, 12, 3⟩,
      ⟨6, 7, 14, 15, 12⟩, ⟨7, 7, 16, 15, 13⟩, ⟨8, 8, 18, 25, 5⟩, ⟨8, 9, 18, 22, 7⟩,
      ⟨8, 10, 18, 12, 6⟩, ⟨8, 11, 18, 15, 21⟩, ⟨9, 9, 19, 22, 16⟩, ⟨9, 11, 19, 15, 22⟩,
      ⟨10, 10, 14, 12, 3⟩, ⟨10, 11, 14, 15, 12⟩, ⟨11, 11, 16, 15, 13⟩, ⟨12, 12, 22, 26, 0⟩,
      ⟨12, 13, 22, 18, 23⟩, ⟨13, 13, 15, 18, 24⟩, ⟨13, 14, 15, 14, 25⟩, ⟨14, 14, 21, 14, 26⟩,
      ⟨15, 15, 15, 18, 0⟩, ⟨16, 16, 15, 18, 0⟩]⟩,
    ⟨[.plus 1, .plus 1], [2, 2], some [
      ⟨1, 1, 12, 14, 27⟩, ⟨2, 1, 15, 14, 28⟩, ⟨2, 2, 15, 16, 29⟩, ⟨3, 2, 17, 16, 30⟩,
      ⟨3, 3, 17, 27, 0⟩, ⟨4, 4, 18, 15, 13⟩, ⟨5, 4, 19, 15, 31⟩, ⟨5, 5, 19, 17, 3⟩,
      ⟨6, 4, 14, 15, 15⟩, ⟨6, 6, 14, 21, 16⟩, ⟨7, 4, 16, 15, 21⟩, ⟨7, 5, 16, 17, 4⟩,
      ⟨7, 6, 16, 21, 1⟩, ⟨7, 7, 16, 28, 5⟩, ⟨8, 8, 18, 15, 13⟩, ⟨9, 8, 19, 15, 31⟩,
      ⟨9, 9, 19, 17, 3⟩, ⟨10, 8, 14, 15, 15⟩, ⟨10, 10, 14, 21, 16⟩, ⟨11, 8, 16, 15, 21⟩,
      ⟨11, 9, 16, 17, 4⟩, ⟨11, 10, 16, 21, 1⟩, ⟨11, 11, 16, 28, 5⟩, ⟨12, 12, 22, 19, 17⟩,
      ⟨13, 12, 15, 19, 18⟩, ⟨13, 13, 15, 16, 19⟩, ⟨14, 13, 21, 16, 20⟩, ⟨14, 14, 21, 29, 0⟩,
      ⟨15, 15, 15, 16, 0⟩, ⟨16, 16, 15, 16, 0⟩]⟩,
    ⟨[.plus 1, .plus (-1)], [2, 2], some [
      ⟨1, 1, 12, 18, 27⟩, ⟨2, 1, 15, 18, 28⟩, ⟨2, 2, 15, 19, 29⟩, ⟨3, 2, 17, 19, 30⟩,
      ⟨3, 3, 17, 30, 0⟩, ⟨4, 4, 18, 22, 16⟩, ⟨4, 6, 18, 15, 22⟩, ⟨5, 4, 19, 22, 1⟩,
      ⟨5, 5, 19, 31, 5⟩, ⟨5, 6, 19, 15, 14⟩, ⟨5, 7, 19, 17, 6⟩, ⟨6, 6, 14, 15, 13⟩,
      ⟨7, 6, 16, 15, 31⟩, ⟨7, 7, 16, 17, 3⟩, ⟨8, 8, 18, 22, 16⟩, ⟨8, 10, 18, 15, 22⟩,
      ⟨9, 8, 19, 22, 1⟩, ⟨9, 9, 19, 31, 5⟩, ⟨9, 10, 19, 15, 14⟩, ⟨9, 11, 19, 17, 6⟩,
      ⟨10, 10, 14, 15, 13⟩, ⟨11, 10, 16, 15, 31⟩, ⟨11, 11, 16, 17, 3⟩, ⟨12, 12, 22, 32, 0⟩,
      ⟨12, 13, 22, 19, 23⟩, ⟨13, 13, 15, 19, 24⟩, ⟨13, 14, 15, 16, 25⟩, ⟨14, 14, 21, 16, 26⟩,
      ⟨15, 15, 15, 19, 0⟩, ⟨16, 16, 15, 19, 0⟩]⟩]

/-- `recalc_triplet` in `nrg-recalc-ISO2.hpp:310-`, 1 channel(s): `iso2-1ch-triplets.dat`, `iso2-1ch-tripletp.dat`, `iso2-1ch-tripletm.dat`. -/
def op_ISO2_1ch_triplet : OpTable where
  builtin := ⟨"ISO2", 1, fields_ISO, tab_ISO2_1ch⟩
  kind := .triplet
  labs := labs_ISO2
  targets := [
    ⟨[.plus 0, .plus 0], [1, 3], some [
      ⟨1, 1, 0, 0, 0⟩, ⟨2, 2, 3, 3, 0⟩, ⟨3, 3, 4, 4, 17⟩, ⟨3, 4, 4, 2, 25⟩, ⟨4, 3, 2, 4, 18⟩,
      ⟨4, 4, 2, 2, 32⟩]⟩,
    ⟨[.plus 0, .plus 2], [1, 3], some [
      ⟨1, 1, 0, 5, 0⟩, ⟨2, 2, 3, 9, 0⟩, ⟨3, 3, 4, 2, 33⟩, ⟨4, 3, 2, 2, 34⟩, ⟨4, 4, 2, 33, 0⟩]⟩,
    ⟨[.plus 0, .plus (-2)], [1, 3], some [
      ⟨1, 1, 0, 7, 0⟩, ⟨2, 2, 3, 11, 0⟩, ⟨3, 3, 4, 34, 0⟩, ⟨3, 4, 4, 4, 23⟩, ⟨4, 4, 2, 4, 35⟩]⟩]

/-- `recalc_triplet` in `nrg-recalc-ISO2.hpp:310-`, 2 channel(s): `iso2-2ch-triplets.dat`, `iso2-2ch-tripletp.dat`, `iso2-2ch-tripletm.dat`. -/
def op_ISO2_2ch_triplet : OpTable where
  builtin := ⟨"ISO2", 2, fields_ISO, tab_ISO2_2ch⟩
  kind := .triplet
  labs := labs_ISO2
  targets := [
    ⟨[.plus 0, .plus 0], [1, 3], some [
      ⟨1, 1, 12, 12, 0⟩, ⟨2, 2, 15, 15, 0⟩, ⟨3, 3, 17, 17, 0⟩, ⟨4, 4, 18, 18, 17⟩,
      ⟨4, 6, 18, 14, 25⟩, ⟨5, 5, 19, 19, 17⟩, ⟨5, 7, 19, 16, 25⟩, ⟨6, 4, 14, 18, 18⟩,
      ⟨6, 6, 14, 14, 32⟩, ⟨7, 5, 16, 19, 18⟩, ⟨7, 7, 16, 16, 36⟩, ⟨8, 8, 18, 18, 17⟩,
      ⟨8, 10, 18, 14, 25⟩, ⟨9, 9, 19, 19, 17⟩, ⟨9, 11, 19, 16, 25⟩, ⟨10, 8, 14, 18, 18⟩,
      ⟨10, 10, 14, 14, 32⟩, ⟨11, 9, 16, 19, 18⟩, ⟨11, 11, 16, 16, 36⟩, ⟨12, 12, 22, 22, 37⟩,
      ⟨12, 13, 22, 15, 38⟩, ⟨13, 12, 15, 22, 39⟩, ⟨13, 13, 15, 15, 40⟩, ⟨13, 14, 15, 21, 41⟩,
      ⟨14, 13, 21, 15, 42⟩, ⟨14, 14, 21, 21, 43⟩, ⟨15, 15, 15, 15, 0⟩, ⟨16, 16, 15, 15, 0⟩]⟩,
    ⟨[.plus 0, .plus 2], [1, 3], some [
      ⟨1, 1, 12, 20, 0⟩, ⟨2, 2, 15, 21, 0⟩, ⟨3, 3, 17, 28, 0⟩, ⟨4, 4, 18, 14, 33⟩,
      ⟨5, 5, 19, 16, 44⟩, ⟨6, 4, 14, 14, 34⟩, ⟨6, 6, 14, 23, 0⟩, ⟨7, 5, 16, 16, 20⟩,
      ⟨7, 7, 16, 29, 0⟩, ⟨8, 8, 18, 14, 33⟩, ⟨9, 9, 19, 16, 44⟩, ⟨10, 8, 14, 14, 34⟩,
      ⟨10, 10, 14, 23, 0⟩, ⟨11, 9, 16, 16, 20⟩, ⟨11, 11, 16, 29, 0⟩, ⟨12, 12, 22, 15, 45⟩,
      ⟨13, 12, 15, 15, 46⟩, ⟨13, 13, 15, 21, 47⟩, ⟨14, 12, 21, 15, 48⟩, ⟨14, 13, 21, 21, 49⟩,
      ⟨14, 14, 21, 35, 0⟩, ⟨15, 15, 15, 21, 0⟩, ⟨16, 16, 15, 21, 0⟩]⟩,
    ⟨[.plus 0, .plus (-2)], [1, 3], some [
      ⟨1, 1, 12, 25, 0⟩, ⟨2, 2, 15, 22, 0⟩, ⟨3, 3, 17, 31, 0⟩, ⟨4, 4, 18, 26, 0⟩,
      ⟨4, 6, 18, 18, 23⟩, ⟨5, 5, 19, 32, 0⟩, ⟨5, 7, 19, 19, 23⟩, ⟨6, 6, 14, 18, 35⟩,
      ⟨7, 7, 16, 19, 35⟩, ⟨8, 8, 18, 26, 0⟩, ⟨8, 10, 18, 18, 23⟩, ⟨9, 9, 19, 32, 0⟩,
      ⟨9, 11, 19, 19, 23⟩, ⟨10, 10, 14, 18, 35⟩, ⟨11, 11, 16, 19, 35⟩, ⟨12, 12, 22, 36, 0⟩,
      ⟨12, 13, 22, 22, 50⟩, ⟨12, 14, 22, 15, 51⟩, ⟨13, 13, 15, 22, 37⟩, ⟨13, 14, 15, 15, 38⟩,
      ⟨14, 14, 21, 15, 45⟩, ⟨15, 15, 15, 22, 0⟩, ⟨16, 16, 15, 22, 0⟩]⟩]

/-- The label expressions in the operator tables of `ISOLR`. -/
def labs_ISOLR : List LabelExpr := [
  [.plus 0, .plus 0, .times (-1)],
  [.plus (-1), .plus 1, .times (-1)],
  [.plus 0, .plus 0, .times 1],
  [.plus (-1), .plus 1, .times 1],
  [.plus 0, .plus (-2), .times (-1)],
  [.plus (-1), .plus (-1), .times (-1)],
  [.plus 0, .plus 2, .times (-1)],
  [.plus (-1), .plus 3, .times (-1)],
  [.plus (-2), .plus 0, .times (-1)],
  [.plus 1, .plus (-1), .times (-1)],
  [.plus (-2), .plus 2, .times (-1)],
  [.plus 1, .plus 1, .times (-1)],
  [.plus (-1), .plus (-1), .times 1],
  [.plus (-2), .plus 0, .times 1],
  [.plus 1, .plus (-1), .times 1],
  [.plus (-2), .plus 2, .times 1],
  [.plus 0, .plus 2, .times 1],
  [.plus 1, .plus 1, .times 1],
  [.plus (-3), .plus 1, .times 1],
  [.plus 2, .plus 0, .times 1],
  [.plus (-1), .plus (-3), .times (-1)],
  [.plus (-2), .plus (-2), .times (-1)],
  [.plus (-2), .plus (-2), .times 1],
  [.plus 0, .plus (-2), .times 1],
  [.plus (-3), .plus (-1), .times 1],
  [.plus 1, .plus 3, .times (-1)],
  [.plus 2, .plus 0, .times (-1)],
  [.plus 2, .plus 2, .times (-1)],
  [.plus 2, .plus 2, .times 1],
  [.plus 3, .plus 1, .times 1],
  [.plus 1, .plus (-3), .times (-1)],
  [.plus 2, .plus (-2), .times (-1)],
  [.plus 2, .plus (-2), .times 1],
  [.plus 3, .plus (-1), .times 1],
  [.plus 0, .plus 4, .times (-1)],
  [.plus (-1), .plus 3, .times 1],
  [.plus 1, .plus 3, .times 1],
  [.plus 0, .plus (-4), .times (-1)],
  [.plus (-1), .plus (-3), .times 1],
  [.plus 1, .plus (-3), .times 1]]

/-- `recalc_doublet` in `nrg-recalc-ISOLR.hpp:244-`, 2 channel(s): `isolr-2ch-doubletmp.dat`, `isolr-2ch-doubletmm.dat`, `isolr-2ch-doubletpp.dat`, `isolr-2ch-doubletpm.dat`. -/
def op_ISOLR_2ch_doublet : OpTable where
  builtin := ⟨"ISOLR", 2, fields_ISOLR, tab_ISOLR_2ch⟩
  kind := .doublet
  labs := labs_ISOLR
  targets := [
    ⟨[.plus (-1), .plus 1, .times 1], [2, 2, 1], some [
      ⟨1, 1, 0, 1, 0⟩, ⟨2, 2, 2, 3, 0⟩, ⟨3, 3, 4, 5, 1⟩, ⟨4, 3, 0, 5, 2⟩, ⟨4, 4, 0, 1, 3⟩,
      ⟨5, 4, 6, 1, 4⟩, ⟨5, 5, 6, 7, 0⟩, ⟨6, 6, 5, 8, 5⟩, ⟨6, 7, 5, 0, 6⟩, ⟨7, 7, 9, 0, 7⟩,
      ⟨8, 6, 1, 8, 8⟩, ⟨8, 7, 1, 0, 9⟩, ⟨8, 8, 1, 10, 0⟩, ⟨8, 9, 1, 6, 10⟩, ⟨9, 7, 11, 0, 11⟩,
      ⟨9, 9, 11, 6, 12⟩, ⟨10, 10, 12, 13, 5⟩, ⟨10, 11, 12, 2, 6⟩, ⟨11, 11, 14, 2, 7⟩,
      ⟨12, 10, 3, 13, 8⟩, ⟨12, 11, 3, 2, 9⟩, ⟨12, 12, 3, 15, 0⟩, ⟨12, 13, 3, 16, 10⟩,
      ⟨13, 11, 17, 2, 11⟩, ⟨13, 13, 17, 16, 12⟩, ⟨14, 14, 13, 18, 13⟩, ⟨14, 15, 13, 3, 14⟩,
      ⟨15, 15, 2, 3, 15⟩, ⟨15, 16, 2, 17, 16⟩, ⟨16, 16, 19, 17, 17⟩]⟩,
    ⟨[.plus (-1), .plus (-1), .times 1], [2, 2, 1], some [
      ⟨1, 1, 0, 5, 0⟩, ⟨2, 2, 2, 12, 0⟩, ⟨3, 3, 4, 20, 18⟩, ⟨3, 4, 4, 5, 19⟩, ⟨4, 4, 0, 5, 20⟩,
      ⟨4, 5, 0, 1, 21⟩, ⟨5, 5, 6, 1, 22⟩, ⟨6, 6, 5, 21, 0⟩, ⟨6, 7, 5, 4, 10⟩, ⟨6, 8, 5, 8, 23⟩,
      ⟨6, 9, 5, 0, 24⟩, ⟨7, 7, 9, 4, 12⟩, ⟨7, 9, 9, 0, 25⟩, ⟨8, 8, 1, 8, 5⟩, ⟨8, 9, 1, 0, 26⟩,
      ⟨9, 9, 11, 0, 27⟩, ⟨10, 10, 12, 22, 0⟩, ⟨10, 11, 12, 23, 10⟩, ⟨10, 12, 12, 13, 23⟩,
      ⟨10, 13, 12, 2, 24⟩, ⟨11, 11, 14, 23, 12⟩, ⟨11, 13, 14, 2, 25⟩, ⟨12, 12, 3, 13, 5⟩,
      ⟨12, 13, 3, 2, 26⟩, ⟨13, 13, 17, 2, 27⟩, ⟨14, 14, 13, 24, 13⟩, ⟨14, 15, 13, 12, 14⟩,
      ⟨15, 15, 2, 12, 15⟩, ⟨15, 16, 2, 14, 16⟩, ⟨16, 16, 19, 14, 28⟩]⟩,
    ⟨[.plus 1, .plus 1, .times 1], [2, 2, 1], some [
      ⟨1, 1, 0, 11, 0⟩, ⟨2, 2, 2, 17, 0⟩, ⟨3, 3, 4, 9, 1⟩, ⟨4, 3, 0, 9, 2⟩, ⟨4, 4, 0, 11, 3⟩,
      ⟨5, 4, 6, 11, 4⟩, ⟨5, 5, 6, 25, 0⟩, ⟨6, 6, 5, 0, 29⟩, ⟨7, 6, 9, 0, 30⟩, ⟨7, 7, 9, 26, 5⟩,
      ⟨8, 6, 1, 0, 11⟩, ⟨8, 8, 1, 6, 12⟩, ⟨9, 6, 11, 0, 24⟩, ⟨9, 7, 11, 26, 8⟩,
      ⟨9, 8, 11, 6, 31⟩, ⟨9, 9, 11, 27, 0⟩, ⟨10, 10, 12, 2, 29⟩, ⟨11, 10, 14, 2, 30⟩,
      ⟨11, 11, 14, 19, 5⟩, ⟨12, 10, 3, 2, 11⟩, ⟨12, 12, 3, 16, 12⟩, ⟨13, 10, 17, 2, 24⟩,
      ⟨13, 11, 17, 19, 8⟩, ⟨13, 12, 17, 16, 31⟩, ⟨13, 13, 17, 28, 0⟩, ⟨14, 14, 13, 3, 32⟩,
      ⟨15, 14, 2, 3, 33⟩, ⟨15, 15, 2, 17, 34⟩, ⟨16, 15, 19, 17, 35⟩, ⟨16, 16, 19, 29, 0⟩]⟩,
    ⟨[.plus 1, .plus (-1), .times 1], [2, 2, 1], some [
      ⟨1, 1, 0, 9, 0⟩, ⟨2, 2, 2, 14, 0⟩, ⟨3, 3, 4, 30, 18⟩, ⟨3, 4, 4, 9, 19⟩, ⟨4, 4, 0, 9, 20⟩,
      ⟨4, 5, 0, 11, 21⟩, ⟨5, 5, 6, 11, 36⟩, ⟨6, 6, 5, 4, 12⟩, ⟨6, 8, 5, 0, 25⟩, ⟨7, 6, 9, 4, 31⟩,
      ⟨7, 7, 9, 31, 0⟩, ⟨7, 8, 9, 0, 9⟩, ⟨7, 9, 9, 26, 23⟩, ⟨8, 8, 1, 0, 37⟩, ⟨9, 8, 11, 0, 30⟩,
      ⟨9, 9, 11, 26, 38⟩, ⟨10, 10, 12, 23, 12⟩, ⟨10, 12, 12, 2, 25⟩, ⟨11, 10, 14, 23, 31⟩,
      ⟨11, 11, 14, 32, 0⟩, ⟨11, 12, 14, 2, 9⟩, ⟨11, 13, 14, 19, 23⟩, ⟨12, 12, 3, 2, 37⟩,
      ⟨13, 12, 17, 2, 30⟩, ⟨13, 13, 17, 19, 38⟩, ⟨14, 14, 13, 12, 32⟩, ⟨15, 14, 2, 12, 33⟩,
      ⟨15, 15, 2, 14, 34⟩, ⟨16, 15, 19, 14, 35⟩, ⟨16, 16, 19, 33, 0⟩]⟩]

/-- `recalc_triplet` in `nrg-recalc-ISOLR.hpp:309-`, 2 channel(s): `isolr-2ch-triplets.dat`, `isolr-2ch-tripletp.dat`, `isolr-2ch-tripletm.dat`. -/
def op_ISOLR_2ch_triplet : OpTable where
  builtin := ⟨"ISOLR", 2, fields_ISOLR, tab_ISOLR_2ch⟩
  kind := .triplet
  labs := labs_ISOLR
  targets := [
    ⟨[.plus 0, .plus 0, .times 1], [1, 3, 1], some [
      ⟨1, 1, 0, 0, 0⟩, ⟨2, 2, 2, 2, 0⟩, ⟨3, 3, 4, 4, 39⟩, ⟨3, 4, 4, 0, 40⟩, ⟨4, 3, 0, 4, 41⟩,
      ⟨4, 4, 0, 0, 42⟩, ⟨4, 5, 0, 6, 43⟩, ⟨5, 4, 6, 0, 44⟩, ⟨5, 5, 6, 6, 45⟩, ⟨6, 6, 5, 5, 46⟩,
      ⟨6, 8, 5, 1, 21⟩, ⟨7, 7, 9, 9, 46⟩, ⟨7, 9, 9, 11, 21⟩, ⟨8, 6, 1, 5, 2⟩, ⟨8, 8, 1, 1, 47⟩,
      ⟨9, 7, 11, 9, 2⟩, ⟨9, 9, 11, 11, 47⟩, ⟨10, 10, 12, 12, 46⟩, ⟨10, 12, 12, 3, 21⟩,
      ⟨11, 11, 14, 14, 46⟩, ⟨11, 13, 14, 17, 21⟩, ⟨12, 10, 3, 12, 2⟩, ⟨12, 12, 3, 3, 47⟩,
      ⟨13, 11, 17, 14, 2⟩, ⟨13, 13, 17, 17, 47⟩, ⟨14, 14, 13, 13, 13⟩, ⟨15, 15, 2, 2, 0⟩,
      ⟨16, 16, 19, 19, 0⟩]⟩,
    ⟨[.plus 0, .plus 2, .times 1], [1, 3, 1], some [
      ⟨1, 1, 0, 6, 0⟩, ⟨2, 2, 2, 16, 0⟩, ⟨3, 3, 4, 0, 48⟩, ⟨4, 3, 0, 0, 49⟩, ⟨4, 4, 0, 6, 45⟩,
      ⟨5, 3, 6, 0, 50⟩, ⟨5, 4, 6, 6, 51⟩, ⟨5, 5, 6, 34, 0⟩, ⟨6, 6, 5, 1, 52⟩, ⟨7, 7, 9, 11, 53⟩,
      ⟨8, 6, 1, 1, 4⟩, ⟨8, 8, 1, 7, 0⟩, ⟨9, 7, 11, 11, 4⟩, ⟨9, 9, 11, 25, 0⟩,
      ⟨10, 10, 12, 3, 52⟩, ⟨11, 11, 14, 17, 53⟩, ⟨12, 10, 3, 3, 4⟩, ⟨12, 12, 3, 35, 0⟩,
      ⟨13, 11, 17, 17, 4⟩, ⟨13, 13, 17, 36, 0⟩, ⟨14, 14, 13, 15, 13⟩, ⟨15, 15, 2, 16, 0⟩,
      ⟨16, 16, 19, 28, 0⟩]⟩,
    ⟨[.plus 0, .plus (-2), .times 1], [1, 3, 1], some [
      ⟨1, 1, 0, 4, 0⟩, ⟨2, 2, 2, 23, 0⟩, ⟨3, 3, 4, 37, 18⟩, ⟨3, 4, 4, 4, 54⟩, ⟨3, 5, 4, 0, 55⟩,
      ⟨4, 4, 0, 4, 56⟩, ⟨4, 5, 0, 0, 57⟩, ⟨5, 5, 6, 0, 58⟩, ⟨6, 6, 5, 20, 18⟩, ⟨6, 8, 5, 5, 59⟩,
      ⟨7, 7, 9, 30, 60⟩, ⟨7, 9, 9, 9, 61⟩, ⟨8, 8, 1, 5, 62⟩, ⟨9, 9, 11, 9, 63⟩,
      ⟨10, 10, 12, 38, 18⟩, ⟨10, 12, 12, 12, 59⟩, ⟨11, 11, 14, 39, 60⟩, ⟨11, 13, 14, 14, 61⟩,
      ⟨12, 12, 3, 12, 62⟩, ⟨13, 13, 17, 14, 63⟩, ⟨14, 14, 13, 22, 13⟩, ⟨15, 15, 2, 23, 0⟩,
      ⟨16, 16, 19, 32, 0⟩]⟩]

/-- The label expressions in the operator tables of `ISO2LR`. -/
def labs_ISO2LR : List LabelExpr := [
  [.plus 0, .plus 0, .times 1],
  [.plus (-1), .plus 1, .times 1],
  [.plus 0, .plus (-2), .times (-1)],
  [.plus (-1), .plus (-1), .times (-1)],
  [.plus 0, .plus 0, .times (-1)],
  [.plus (-1), .plus 1, .times (-1)],
  [.plus 0, .plus 2, .times (-1)],
  [.plus (-1), .plus 3, .times (-1)],
  [.plus (-2), .plus 0, .times (-1)],
  [.plus 1, .plus (-1), .times (-1)],
  [.plus (-2), .plus 2, .times (-1)],
  [.plus 1, .plus 1, .times (-1)],
  [.plus (-1), .plus (-1), .times 1],
  [.plus (-2), .plus 0, .times 1],
  [.plus 1, .plus (-1), .times 1],
  [.plus (-2), .plus 2, .times 1],
  [.plus 0, .plus 2, .times 1],
  [.plus 1, .plus 1, .times 1],
  [.plus (-3), .plus 1, .times 1],
  [.plus 2, .plus 0, .times 1],
  [.plus (-1), .plus (-3), .times (-1)],
  [.plus (-2), .plus (-2), .times (-1)],
  [.plus (-2), .plus (-2), .times 1],
  [.plus 0, .plus (-2), .times 1],
  [.plus (-3), .plus (-1), .times 1],
  [.plus 1, .plus 3, .times (-1)],
  [.plus 2, .plus 0, .times (-1)],
  [.plus 2, .plus 2, .times (-1)],
  [.plus 2, .plus 2, .times 1],
  [.plus 3, .plus 1, .times 1],
  [.plus 1, .plus (-3), .times (-1)],
  [.plus 2, .plus (-2), .times (-1)],
  [.plus 2, .plus (-2), .times 1],
  [.plus 3, .plus (-1), .times 1],
  [.plus 0, .plus 4, .times (-1)],
  [.plus (-1), .plus 3, .times 1],
  [.plus 1, .plus 3, .times 1],
  [.plus 0, .plus (-4), .times (-1)],
  [.plus (-1), .plus (-3), .times 1],
  [.plus 1, .plus (-3), .times 1]]

/-- `recalc_doublet` in `nrg-recalc-ISO2LR.hpp:251-`, 2 channel(s): `iso2lr-2ch-doubletmp.dat`, `iso2lr-2ch-doubletmm.dat`, `iso2lr-2ch-doubletpp.dat`, `iso2lr-2ch-doubletpm.dat`. -/
def op_ISO2LR_2ch_doublet : OpTable where
  builtin := ⟨"ISO2LR", 2, fields_ISOLR, tab_ISO2LR_2ch⟩
  kind := .doublet
  labs := labs_ISO2LR
  targets := [
    ⟨[.plus (-1), .plus 1, .times 1], [2, 2, 1], some [
      ⟨1, 1, 0, 1, 0⟩, ⟨2, 2, 0, 1, 0⟩, ⟨3, 3, 2, 3, 1⟩, ⟨4, 3, 4, 3, 2⟩, ⟨4, 4, 4, 5, 3⟩,
      ⟨5, 4, 6, 5, 4⟩, ⟨5, 5, 6, 7, 0⟩, ⟨6, 6, 3, 8, 5⟩, ⟨6, 7, 3, 4, 6⟩, ⟨7, 7, 9, 4, 7⟩,
      ⟨8, 6, 5, 8, 8⟩, ⟨8, 7, 5, 4, 9⟩, ⟨8, 8, 5, 10, 10⟩, ⟨8, 9, 5, 6, 11⟩, ⟨9, 7, 11, 4, 12⟩,
      ⟨9, 9, 11, 6, 13⟩, ⟨10, 10, 12, 13, 5⟩, ⟨10, 11, 12, 0, 6⟩, ⟨11, 11, 14, 0, 7⟩,
      ⟨12, 10, 1, 13, 8⟩, ⟨12, 11, 1, 0, 9⟩, ⟨12, 12, 1, 15, 10⟩, ⟨12, 13, 1, 16, 11⟩,
      ⟨13, 11, 17, 0, 12⟩, ⟨13, 13, 17, 16, 13⟩, ⟨14, 14, 13, 18, 14⟩, ⟨14, 15, 13, 1, 15⟩,
      ⟨15, 15, 0, 1, 16⟩, ⟨15, 16, 0, 17, 17⟩, ⟨16, 16, 19, 17, 18⟩]⟩,
    ⟨[.plus (-1), .plus (-1), .times 1], [2, 2, 1], some [
      ⟨1, 1, 0, 12, 0⟩, ⟨2, 2, 0, 12, 0⟩, ⟨3, 3, 2, 20, 19⟩, ⟨3, 4, 2, 3, 20⟩, ⟨4, 4, 4, 3, 21⟩,
      ⟨4, 5, 4, 5, 22⟩, ⟨5, 5, 6, 5, 23⟩, ⟨6, 6, 3, 21, 24⟩, ⟨6, 7, 3, 2, 25⟩, ⟨6, 8, 3, 8, 26⟩,
      ⟨6, 9, 3, 4, 27⟩, ⟨7, 7, 9, 2, 28⟩, ⟨7, 9, 9, 4, 29⟩, ⟨8, 8, 5, 8, 5⟩, ⟨8, 9, 5, 4, 6⟩,
      ⟨9, 9, 11, 4, 7⟩, ⟨10, 10, 12, 22, 24⟩, ⟨10, 11, 12, 23, 25⟩, ⟨10, 12, 12, 13, 26⟩,
      ⟨10, 13, 12, 0, 27⟩, ⟨11, 11, 14, 23, 28⟩, ⟨11, 13, 14, 0, 29⟩, ⟨12, 12, 1, 13, 5⟩,
      ⟨12, 13, 1, 0, 6⟩, ⟨13, 13, 17, 0, 7⟩, ⟨14, 14, 13, 24, 14⟩, ⟨14, 15, 13, 12, 15⟩,
      ⟨15, 15, 0, 12, 16⟩, ⟨15, 16, 0, 14, 17⟩, ⟨16, 16, 19, 14, 18⟩]⟩,
    ⟨[.plus 1, .plus 1, .times 1], [2, 2, 1], some [
      ⟨1, 1, 0, 17, 0⟩, ⟨2, 2, 0, 17, 0⟩, ⟨3, 3, 2, 9, 1⟩, ⟨4, 3, 4, 9, 2⟩, ⟨4, 4, 4, 11, 3⟩,
      ⟨5, 4, 6, 11, 4⟩, ⟨5, 5, 6, 25, 0⟩, ⟨6, 6, 3, 4, 7⟩, ⟨7, 6, 9, 4, 30⟩, ⟨7, 7, 9, 26, 5⟩,
      ⟨8, 6, 5, 4, 12⟩, ⟨8, 8, 5, 6, 13⟩, ⟨9, 6, 11, 4, 27⟩, ⟨9, 7, 11, 26, 8⟩,
      ⟨9, 8, 11, 6, 31⟩, ⟨9, 9, 11, 27, 10⟩, ⟨10, 10, 12, 0, 7⟩, ⟨11, 10, 14, 0, 30⟩,
      ⟨11, 11, 14, 19, 5⟩, ⟨12, 10, 1, 0, 12⟩, ⟨12, 12, 1, 16, 13⟩, ⟨13, 10, 17, 0, 27⟩,
      ⟨13, 11, 17, 19, 8⟩, ⟨13, 12, 17, 16, 31⟩, ⟨13, 13, 17, 28, 10⟩, ⟨14, 14, 13, 1, 32⟩,
      ⟨15, 14, 0, 1, 33⟩, ⟨15, 15, 0, 17, 34⟩, ⟨16, 15, 19, 17, 35⟩, ⟨16, 16, 19, 29, 0⟩]⟩,
    ⟨[.plus 1, .plus (-1), .times 1], [2, 2, 1], some [
      ⟨1, 1, 0, 14, 0⟩, ⟨2, 2, 0, 14, 0⟩, ⟨3, 3, 2, 30, 19⟩, ⟨3, 4, 2, 9, 20⟩, ⟨4, 4, 4, 9, 21⟩,
      ⟨4, 5, 4, 11, 22⟩, ⟨5, 5, 6, 11, 23⟩, ⟨6, 6, 3, 2, 36⟩, ⟨6, 8, 3, 4, 29⟩, ⟨7, 6, 9, 2, 37⟩,
      ⟨7, 7, 9, 31, 38⟩, ⟨7, 8, 9, 4, 9⟩, ⟨7, 9, 9, 26, 26⟩, ⟨8, 8, 5, 4, 7⟩, ⟨9, 8, 11, 4, 30⟩,
      ⟨9, 9, 11, 26, 5⟩, ⟨10, 10, 12, 23, 36⟩, ⟨10, 12, 12, 0, 29⟩, ⟨11, 10, 14, 23, 37⟩,
      ⟨11, 11, 14, 32, 38⟩, ⟨11, 12, 14, 0, 9⟩, ⟨11, 13, 14, 19, 26⟩, ⟨12, 12, 1, 0, 7⟩,
      ⟨13, 12, 17, 0, 30⟩, ⟨13, 13, 17, 19, 5⟩, ⟨14, 14, 13, 12, 32⟩, ⟨15, 14, 0, 12, 33⟩,
      ⟨15, 15, 0, 14, 34⟩, ⟨16, 15, 19, 14, 35⟩, ⟨16, 16, 19, 33, 0⟩]⟩]

/-- `recalc_triplet` in `nrg-recalc-ISO2LR.hpp:316-`, 2 channel(s): `iso2lr-2ch-triplets.dat`, `iso2lr-2ch-tripletp.dat`, `iso2lr-2ch-tripletm.dat`. -/
def op_ISO2LR_2ch_triplet : OpTable where
  builtin := ⟨"ISO2LR", 2, fields_ISOLR, tab_ISO2LR_2ch⟩
  kind := .triplet
  labs := labs_ISO2LR
  targets := [
    ⟨[.plus 0, .plus 0, .times 1], [1, 3, 1], some [
      ⟨1, 1, 0, 0, 0⟩, ⟨2, 2, 0, 0, 0⟩, ⟨3, 3, 2, 2, 39⟩, ⟨3, 4, 2, 4, 40⟩, ⟨4, 3, 4, 2, 41⟩,
      ⟨4, 4, 4, 4, 42⟩, ⟨4, 5, 4, 6, 43⟩, ⟨5, 4, 6, 4, 44⟩, ⟨5, 5, 6, 6, 45⟩, ⟨6, 6, 3, 3, 46⟩,
      ⟨6, 8, 3, 5, 22⟩, ⟨7, 7, 9, 9, 46⟩, ⟨7, 9, 9, 11, 22⟩, ⟨8, 6, 5, 3, 2⟩, ⟨8, 8, 5, 5, 47⟩,
      ⟨9, 7, 11, 9, 2⟩, ⟨9, 9, 11, 11, 47⟩, ⟨10, 10, 12, 12, 46⟩, ⟨10, 12, 12, 1, 22⟩,
      ⟨11, 11, 14, 14, 46⟩, ⟨11, 13, 14, 17, 22⟩, ⟨12, 10, 1, 12, 2⟩, ⟨12, 12, 1, 1, 47⟩,
      ⟨13, 11, 17, 14, 2⟩, ⟨13, 13, 17, 17, 47⟩, ⟨14, 14, 13, 13, 14⟩, ⟨15, 15, 0, 0, 0⟩,
      ⟨16, 16, 19, 19, 0⟩]⟩,
    ⟨[.plus 0, .plus 2, .times 1], [1, 3, 1], some [
      ⟨1, 1, 0, 16, 0⟩, ⟨2, 2, 0, 16, 0⟩, ⟨3, 3, 2, 4, 48⟩, ⟨4, 3, 4, 4, 49⟩, ⟨4, 4, 4, 6, 45⟩,
      ⟨5, 3, 6, 4, 50⟩, ⟨5, 4, 6, 6, 51⟩, ⟨5, 5, 6, 34, 0⟩, ⟨6, 6, 3, 5, 52⟩, ⟨7, 7, 9, 11, 52⟩,
      ⟨8, 6, 5, 5, 4⟩, ⟨8, 8, 5, 7, 0⟩, ⟨9, 7, 11, 11, 4⟩, ⟨9, 9, 11, 25, 0⟩,
      ⟨10, 10, 12, 1, 52⟩, ⟨11, 11, 14, 17, 52⟩, ⟨12, 10, 1, 1, 4⟩, ⟨12, 12, 1, 35, 0⟩,
      ⟨13, 11, 17, 17, 4⟩, ⟨13, 13, 17, 36, 0⟩, ⟨14, 14, 13, 15, 14⟩, ⟨15, 15, 0, 16, 0⟩,
      ⟨16, 16, 19, 28, 0⟩]⟩,
    ⟨[.plus 0, .plus (-2), .times 1], [1, 3, 1], some [
      ⟨1, 1, 0, 23, 0⟩, ⟨2, 2, 0, 23, 0⟩, ⟨3, 3, 2, 37, 19⟩, ⟨3, 4, 2, 2, 53⟩, ⟨3, 5, 2, 4, 54⟩,
      ⟨4, 4, 4, 2, 55⟩, ⟨4, 5, 4, 4, 56⟩, ⟨5, 5, 6, 4, 57⟩, ⟨6, 6, 3, 20, 58⟩, ⟨6, 8, 3, 3, 20⟩,
      ⟨7, 7, 9, 30, 58⟩, ⟨7, 9, 9, 9, 59⟩, ⟨8, 8, 5, 3, 60⟩, ⟨9, 9, 11, 9, 61⟩,
      ⟨10, 10, 12, 38, 58⟩, ⟨10, 12, 12, 12, 20⟩, ⟨11, 11, 14, 39, 58⟩, ⟨11, 13, 14, 14, 59⟩,
      ⟨12, 12, 1, 12, 60⟩, ⟨13, 13, 17, 14, 61⟩, ⟨14, 14, 13, 22, 14⟩, ⟨15, 15, 0, 23, 0⟩,
      ⟨16, 16, 19, 32, 0⟩]⟩]

/-- The label expressions in the operator tables of `ISOSZ`. -/
def labs_ISOSZ : List LabelExpr := [
  [.plus (-1), .plus 0],
  [.plus (-2), .plus 1],
  [.plus 0, .plus 1],
  [.plus 1, .plus 0],
  [.plus 0, .plus (-1)],
  [.plus (-1), .plus 2],
  [.plus (-2), .plus (-1)],
  [.plus (-1), .plus (-2)],
  [.plus 2, .plus 1],
  [.plus 1, .plus 2],
  [.plus 2, .plus (-1)],
  [.plus 1, .plus (-2)],
  [.plus (-2), .plus 0],
  [.plus (-3), .plus 1],
  [.plus (-1), .plus 1],
  [.plus 0, .plus 0],
  [.plus 1, .plus 1],
  [.plus 2, .plus 0],
  [.plus (-1), .plus (-1)],
  [.plus 1, .plus (-1)],
  [.plus (-2), .plus 2],
  [.plus 0, .plus 2],
  [.plus 0, .plus (-2)],
  [.plus (-1), .plus 3],
  [.plus (-3), .plus (-1)],
  [.plus (-2), .plus (-2)],
  [.plus (-1), .plus (-3)],
  [.plus 3, .plus 1],
  [.plus 2, .plus 2],
  [.plus 1, .plus 3],
  [.plus 3, .plus (-1)],
  [.plus 2, .plus (-2)],
  [.plus 1, .plus (-3)],
  [.plus 0, .plus 3],
  [.plus 0, .plus (-3)],
  [.plus 0, .plus 4],
  [.plus 0, .plus (-4)]]

/-- `recalc_doublet` in `nrg-recalc-ISOSZ.hpp:32-`, 1 channel(s): `isosz-1ch-doubletmp.dat`, `isosz-1ch-doubletmm.dat`, `isosz-1ch-doubletpp.dat`, `isosz-1ch-doubletpm.dat`. -/
def op_ISOSZ_1ch_doublet : OpTable where
  builtin := ⟨"ISOSZ", 1, fields_ISOSZ, tab_ISOSZ_1ch⟩
  kind := .doublet
  labs := labs_ISOSZ
  targets := [
    ⟨[.plus (-1), .plus 1], [2, -1], some [
      ⟨1, 1, 0, 1, 0⟩, ⟨1, 2, 0, 2, 1⟩, ⟨2, 2, 3, 2, 2⟩, ⟨3, 3, 4, 0, 3⟩, ⟨4, 4, 2, 5, 3⟩]⟩,
    ⟨[.plus (-1), .plus (-1)], [2, 1], some [
      ⟨1, 1, 0, 6, 0⟩, ⟨1, 2, 0, 4, 1⟩, ⟨2, 2, 3, 4, 2⟩, ⟨3, 3, 4, 7, 3⟩, ⟨4, 4, 2, 0, 3⟩]⟩,
    ⟨[.plus 1, .plus 1], [2, -1], some [
      ⟨1, 1, 0, 2, 2⟩, ⟨2, 1, 3, 2, 4⟩, ⟨2, 2, 3, 8, 0⟩, ⟨3, 3, 4, 3, 3⟩, ⟨4, 4, 2, 9, 3⟩]⟩,
    ⟨[.plus 1, .plus (-1)], [2, 1], some [
      ⟨1, 1, 0, 4, 2⟩, ⟨2, 1, 3, 4, 4⟩, ⟨2, 2, 3, 10, 0⟩, ⟨3, 3, 4, 11, 3⟩, ⟨4, 4, 2, 3, 3⟩]⟩]

/-- `recalc_doublet` in `nrg-recalc-ISOSZ.hpp:32-`, 2 channel(s): `isosz-2ch-doubletmp.dat`, `isosz-2ch-doubletmm.dat`, `isosz-2ch-doubletpp.dat`, `isosz-2ch-doubletpm.dat`. -/
def op_ISOSZ_2ch_doublet : OpTable where
  builtin := ⟨"ISOSZ", 2, fields_ISOSZ, tab_ISOSZ_2ch⟩
  kind := .doublet
  labs := labs_ISOSZ
  targets := [
    ⟨[.plus (-1), .plus 1], [2, -1], some [
      ⟨1, 1, 12, 13, 0⟩, ⟨1, 2, 12, 14, 5⟩, ⟨2, 2, 15, 14, 6⟩, ⟨2, 3, 15, 16, 7⟩,
      ⟨3, 3, 17, 16, 8⟩, ⟨4, 4, 18, 12, 3⟩, ⟨4, 5, 18, 15, 4⟩, ⟨5, 5, 19, 15, 9⟩,
      ⟨6, 6, 18, 12, 3⟩, ⟨6, 7, 18, 15, 4⟩, ⟨7, 7, 19, 15, 9⟩, ⟨8, 8, 14, 20, 3⟩,
      ⟨8, 9, 14, 21, 4⟩, ⟨9, 9, 16, 21, 9⟩, ⟨10, 10, 14, 20, 3⟩, ⟨10, 11, 14, 21, 4⟩,
      ⟨11, 11, 16, 21, 9⟩, ⟨12, 12, 22, 18, 0⟩, ⟨13, 13, 15, 14, 0⟩, ⟨14, 14, 15, 14, 0⟩,
      ⟨15, 15, 15, 14, 0⟩, ⟨16, 16, 21, 23, 0⟩]⟩,
    ⟨[.plus (-1), .plus (-1)], [2, 1], some [
      ⟨1, 1, 12, 24, 0⟩, ⟨1, 2, 12, 18, 5⟩, ⟨2, 2, 15, 18, 6⟩, ⟨2, 3, 15, 19, 7⟩,
      ⟨3, 3, 17, 19, 8⟩, ⟨4, 4, 18, 25, 3⟩, ⟨4, 5, 18, 22, 4⟩, ⟨5, 5, 19, 22, 9⟩,
      ⟨6, 6, 18, 25, 3⟩, ⟨6, 7, 18, 22, 4⟩, ⟨7, 7, 19, 22, 9⟩, ⟨8, 8, 14, 12, 3⟩,
      ⟨8, 9, 14, 15, 4⟩, ⟨9, 9, 16, 15, 9⟩, ⟨10, 10, 14, 12, 3⟩, ⟨10, 11, 14, 15, 4⟩,
      ⟨11, 11, 16, 15, 9⟩, ⟨12, 12, 22, 26, 0⟩, ⟨13, 13, 15, 18, 0⟩, ⟨14, 14, 15, 18, 0⟩,
      ⟨15, 15, 15, 18, 0⟩, ⟨16, 16, 21, 14, 0⟩]⟩,
    ⟨[.plus 1, .plus 1], [2, -1], some [
      ⟨1, 1, 12, 14, 10⟩, ⟨2, 1, 15, 14, 11⟩, ⟨2, 2, 15, 16, 12⟩, ⟨3, 2, 17, 16, 13⟩,
      ⟨3, 3, 17, 27, 0⟩, ⟨4, 4, 18, 15, 9⟩, ⟨5, 4, 19, 15, 1⟩, ⟨5, 5, 19, 17, 3⟩,
      ⟨6, 6, 18, 15, 9⟩, ⟨7, 6, 19, 15, 1⟩, ⟨7, 7, 19, 17, 3⟩, ⟨8, 8, 14, 21, 9⟩,
      ⟨9, 8, 16, 21, 1⟩, ⟨9, 9, 16, 28, 3⟩, ⟨10, 10, 14, 21, 9⟩, ⟨11, 10, 16, 21, 1⟩,
      ⟨11, 11, 16, 28, 3⟩, ⟨12, 12, 22, 19, 0⟩, ⟨13, 13, 15, 16, 0⟩, ⟨14, 14, 15, 16, 0⟩,
      ⟨15, 15, 15, 16, 0⟩, ⟨16, 16, 21, 29, 0⟩]⟩,
    ⟨[.plus 1, .plus (-1)], [2, 1], some [
      ⟨1, 1, 12, 18, 10⟩, ⟨2, 1, 15, 18, 11⟩, ⟨2, 2, 15, 19, 12⟩, ⟨3, 2, 17, 19, 13⟩,
      ⟨3, 3, 17, 30, 0⟩, ⟨4, 4, 18, 22, 9⟩, ⟨5, 4, 19, 22, 1⟩, ⟨5, 5, 19, 31, 3⟩,
      ⟨6, 6, 18, 22, 9⟩, ⟨7, 6, 19, 22, 1⟩, ⟨7, 7, 19, 31, 3⟩, ⟨8, 8, 14, 15, 9⟩,
      ⟨9, 8, 16, 15, 1⟩, ⟨9, 9, 16, 17, 3⟩, ⟨10, 10, 14, 15, 9⟩, ⟨11, 10, 16, 15, 1⟩,
      ⟨11, 11, 16, 17, 3⟩, ⟨12, 12, 22, 32, 0⟩, ⟨13, 13, 15, 19, 0⟩, ⟨14, 14, 15, 19, 0⟩,
      ⟨15, 15, 15, 19, 0⟩, ⟨16, 16, 21, 16, 0⟩]⟩]

/-- `recalc_triplet` in `nrg-recalc-ISOSZ.hpp:311-`, 1 channel(s): `isosz-1ch-triplets.dat`, `isosz-1ch-tripletp.dat`, `isosz-1ch-tripletm.dat`. -/
def op_ISOSZ_1ch_triplet : OpTable where
  builtin := ⟨"ISOSZ", 1, fields_ISOSZ, tab_ISOSZ_1ch⟩
  kind := .triplet
  labs := labs_ISOSZ
  targets := [
    ⟨[.plus 0, .plus 0], [1, 0], some [
      ⟨1, 1, 0, 0, 0⟩, ⟨2, 2, 3, 3, 0⟩, ⟨3, 3, 4, 4, 0⟩, ⟨4, 4, 2, 2, 0⟩]⟩,
    ⟨[.plus 0, .plus 2], [1, -2], some [
      ⟨1, 1, 0, 5, 0⟩, ⟨2, 2, 3, 9, 0⟩, ⟨3, 3, 4, 2, 0⟩, ⟨4, 4, 2, 33, 0⟩]⟩,
    ⟨[.plus 0, .plus (-2)], [1, 2], some [
      ⟨1, 1, 0, 7, 0⟩, ⟨2, 2, 3, 11, 0⟩, ⟨3, 3, 4, 34, 0⟩, ⟨4, 4, 2, 4, 0⟩]⟩]

/-- `recalc_triplet` in `nrg-recalc-ISOSZ.hpp:311-`, 2 channel(s): `isosz-2ch-triplets.dat`, `isosz-2ch-tripletp.dat`, `isosz-2ch-tripletm.dat`. -/
def op_ISOSZ_2ch_triplet : OpTable where
  builtin := ⟨"ISOSZ", 2, fields_ISOSZ, tab_ISOSZ_2ch⟩
  kind := .triplet
  labs := labs_ISOSZ
  targets := [
    ⟨[.plus 0, .plus 0], [1, 0], some [
      ⟨1, 1, 12, 12, 0⟩, ⟨2, 2, 15, 15, 0⟩, ⟨3, 3, 17, 17, 0⟩, ⟨4, 4, 18, 18, 0⟩,
      ⟨5, 5, 19, 19, 0⟩, ⟨6, 6, 18, 18, 0⟩, ⟨7, 7, 19, 19, 0⟩, ⟨8, 8, 14, 14, 0⟩,
      ⟨9, 9, 16, 16, 0⟩, ⟨10, 10, 14, 14, 0⟩, ⟨11, 11, 16, 16, 0⟩, ⟨12, 12, 22, 22, 0⟩,
      ⟨13, 13, 15, 15, 0⟩, ⟨14, 14, 15, 15, 0⟩, ⟨15, 15, 15, 15, 0⟩, ⟨16, 16, 21, 21, 0⟩]⟩,
    ⟨[.plus 0, .plus 2], [1, -2], some [
      ⟨1, 1, 12, 20, 0⟩, ⟨2, 2, 15, 21, 0⟩, ⟨3, 3, 17, 28, 0⟩, ⟨4, 4, 18, 14, 0⟩,
      ⟨5, 5, 19, 16, 0⟩, ⟨6, 6, 18, 14, 0⟩, ⟨7, 7, 19, 16, 0⟩, ⟨8, 8, 14, 23, 0⟩,
      ⟨9, 9, 16, 29, 0⟩, ⟨10, 10, 14, 23, 0⟩, ⟨11, 11, 16, 29, 0⟩, ⟨12, 12, 22, 15, 0⟩,
      ⟨13, 13, 15, 21, 0⟩, ⟨14, 14, 15, 21, 0⟩, ⟨15, 15, 15, 21, 0⟩, ⟨16, 16, 21, 35, 0⟩]⟩,
    ⟨[.plus 0, .plus (-2)], [1, 2], some [
      ⟨1, 1, 12, 25, 0⟩, ⟨2, 2, 15, 22, 0⟩, ⟨3, 3, 17, 31, 0⟩, ⟨4, 4, 18, 26, 0⟩,
      ⟨5, 5, 19, 32, 0⟩, ⟨6, 6, 18, 26, 0⟩, ⟨7, 7, 19, 32, 0⟩, ⟨8, 8, 14, 18, 0⟩,
      ⟨9, 9, 16, 19, 0⟩, ⟨10, 10, 14, 18, 0⟩, ⟨11, 11, 16, 19, 0⟩, ⟨12, 12, 22, 36, 0⟩,
      ⟨13, 13, 15, 22, 0⟩, ⟨14, 14, 15, 22, 0⟩, ⟨15, 15, 15, 22, 0⟩, ⟨16, 16, 21, 15, 0⟩]⟩]

/-- The label expressions in the operator tables of `ISOSZLR`. -/
def labs_ISOSZLR : List LabelExpr := [
  [.plus 0, .plus 2, .times (-1)],
  [.plus (-1), .plus 3, .times (-1)],
  [.plus 0, .plus 0, .times (-1)],
  [.plus (-1), .plus 1, .times (-1)],
  [.plus 0, .plus 0, .times 1],
  [.plus (-1), .plus 1, .times 1],
  [.plus 0, .plus (-2), .times (-1)],
  [.plus (-1), .plus (-1), .times (-1)],
  [.plus (-2), .plus 2, .times (-1)],
  [.plus 1, .plus 1, .times (-1)],
  [.plus (-2), .plus 2, .times 1],
  [.plus 0, .plus 2, .times 1],
  [.plus 1, .plus 1, .times 1],
  [.plus (-2), .plus 0, .times (-1)],
  [.plus 1, .plus (-1), .times (-1)],
  [.plus (-1), .plus (-1), .times 1],
  [.plus (-2), .plus 0, .times 1],
  [.plus 1, .plus (-1), .times 1],
  [.plus (-3), .plus 1, .times 1],
  [.plus 2, .plus 0, .times 1],
  [.plus (-1), .plus (-3), .times (-1)],
  [.plus (-2), .plus (-2), .times (-1)],
  [.plus (-2), .plus (-2), .times 1],
  [.plus 0, .plus (-2), .times 1],
  [.plus (-3), .plus (-1), .times 1],
  [.plus 1, .plus 3, .times (-1)],
  [.plus 2, .plus 2, .times (-1)],
  [.plus 2, .plus 2, .times 1],
  [.plus 2, .plus 0, .times (-1)],
  [.plus 3, .plus 1, .times 1],
  [.plus 1, .plus (-3), .times (-1)],
  [.plus 2, .plus (-2), .times (-1)],
  [.plus 2, .plus (-2), .times 1],
  [.plus 3, .plus (-1), .times 1],
  [.plus 0, .plus 4, .times (-1)],
  [.plus (-1), .plus 3, .times 1],
  [.plus 1, .plus 3, .times 1],
  [.plus 0, .plus (-4), .times (-1)],
  [.plus (-1), .plus (-3), .times 1],
  [.plus 1, .plus (-3), .times 1]]

/-- `recalc_doublet` in `nrg-recalc-ISOSZLR.hpp:230-`, 2 channel(s): `isoszlr-2ch-doubletmp.dat`, `isoszlr-2ch-doubletmm.dat`, `isoszlr-2ch-doubletpp.dat`, `isoszlr-2ch-doubletpm.dat`. -/
def op_ISOSZLR_2ch_doublet : OpTable where
  builtin := ⟨"ISOSZLR", 2, fields_ISOSZLR, tab_ISOSZLR_2ch⟩
  kind := .doublet
  labs := labs_ISOSZLR
  targets := [
    ⟨[.plus (-1), .plus 1, .times 1], [2, -1, 1], some [
      ⟨1, 1, 0, 1, 0⟩, ⟨2, 2, 2, 3, 0⟩, ⟨3, 3, 2, 3, 0⟩, ⟨4, 4, 4, 5, 0⟩, ⟨5, 5, 6, 7, 0⟩,
      ⟨6, 6, 3, 8, 1⟩, ⟨6, 7, 3, 0, 2⟩, ⟨7, 7, 9, 0, 3⟩, ⟨8, 8, 5, 10, 1⟩, ⟨8, 9, 5, 11, 2⟩,
      ⟨9, 9, 12, 11, 3⟩, ⟨10, 10, 7, 13, 1⟩, ⟨10, 11, 7, 2, 2⟩, ⟨11, 11, 14, 2, 3⟩,
      ⟨12, 12, 15, 16, 1⟩, ⟨12, 13, 15, 4, 2⟩, ⟨13, 13, 17, 4, 3⟩, ⟨14, 14, 16, 18, 0⟩,
      ⟨14, 15, 16, 5, 4⟩, ⟨15, 15, 4, 5, 5⟩, ⟨15, 16, 4, 12, 6⟩, ⟨16, 16, 19, 12, 7⟩]⟩,
    ⟨[.plus (-1), .plus (-1), .times 1], [2, 1, 1], some [
      ⟨1, 1, 0, 3, 0⟩, ⟨2, 2, 2, 7, 0⟩, ⟨3, 3, 2, 7, 0⟩, ⟨4, 4, 4, 15, 0⟩, ⟨5, 5, 6, 20, 0⟩,
      ⟨6, 6, 3, 13, 1⟩, ⟨6, 7, 3, 2, 2⟩, ⟨7, 7, 9, 2, 3⟩, ⟨8, 8, 5, 16, 1⟩, ⟨8, 9, 5, 4, 2⟩,
      ⟨9, 9, 12, 4, 3⟩, ⟨10, 10, 7, 21, 1⟩, ⟨10, 11, 7, 6, 2⟩, ⟨11, 11, 14, 6, 3⟩,
      ⟨12, 12, 15, 22, 1⟩, ⟨12, 13, 15, 23, 2⟩, ⟨13, 13, 17, 23, 3⟩, ⟨14, 14, 16, 24, 0⟩,
      ⟨14, 15, 16, 15, 4⟩, ⟨15, 15, 4, 15, 5⟩, ⟨15, 16, 4, 17, 6⟩, ⟨16, 16, 19, 17, 7⟩]⟩,
    ⟨[.plus 1, .plus 1, .times 1], [2, -1, 1], some [
      ⟨1, 1, 0, 25, 0⟩, ⟨2, 2, 2, 9, 0⟩, ⟨3, 3, 2, 9, 0⟩, ⟨4, 4, 4, 12, 0⟩, ⟨5, 5, 6, 14, 0⟩,
      ⟨6, 6, 3, 0, 3⟩, ⟨7, 6, 9, 0, 8⟩, ⟨7, 7, 9, 26, 1⟩, ⟨8, 8, 5, 11, 3⟩, ⟨9, 8, 12, 11, 8⟩,
      ⟨9, 9, 12, 27, 1⟩, ⟨10, 10, 7, 2, 3⟩, ⟨11, 10, 14, 2, 8⟩, ⟨11, 11, 14, 28, 1⟩,
      ⟨12, 12, 15, 4, 3⟩, ⟨13, 12, 17, 4, 8⟩, ⟨13, 13, 17, 19, 1⟩, ⟨14, 14, 16, 5, 9⟩,
      ⟨15, 14, 4, 5, 10⟩, ⟨15, 15, 4, 12, 11⟩, ⟨16, 15, 19, 12, 12⟩, ⟨16, 16, 19, 29, 0⟩]⟩,
    ⟨[.plus 1, .plus (-1), .times 1], [2, 1, 1], some [
      ⟨1, 1, 0, 9, 0⟩, ⟨2, 2, 2, 14, 0⟩, ⟨3, 3, 2, 14, 0⟩, ⟨4, 4, 4, 17, 0⟩, ⟨5, 5, 6, 30, 0⟩,
      ⟨6, 6, 3, 2, 3⟩, ⟨7, 6, 9, 2, 8⟩, ⟨7, 7, 9, 28, 1⟩, ⟨8, 8, 5, 4, 3⟩, ⟨9, 8, 12, 4, 8⟩,
      ⟨9, 9, 12, 19, 1⟩, ⟨10, 10, 7, 6, 3⟩, ⟨11, 10, 14, 6, 8⟩, ⟨11, 11, 14, 31, 1⟩,
      ⟨12, 12, 15, 23, 3⟩, ⟨13, 12, 17, 23, 8⟩, ⟨13, 13, 17, 32, 1⟩, ⟨14, 14, 16, 15, 9⟩,
      ⟨15, 14, 4, 15, 10⟩, ⟨15, 15, 4, 17, 11⟩, ⟨16, 15, 19, 17, 12⟩, ⟨16, 16, 19, 33, 0⟩]⟩]

/-- `recalc_triplet` in `nrg-recalc-ISOSZLR.hpp:295-`, 2 channel(s): `isoszlr-2ch-triplets.dat`, `isoszlr-2ch-tripletp.dat`, `isoszlr-2ch-tripletm.dat`. -/
def op_ISOSZLR_2ch_triplet : OpTable where
  builtin := ⟨"ISOSZLR", 2, fields_ISOSZLR, tab_ISOSZLR_2ch⟩
  kind := .triplet
  labs := labs_ISOSZLR
  targets := [
    ⟨[.plus 0, .plus 0, .times 1], [1, 0, 1], some [
      ⟨1, 1, 0, 0, 0⟩, ⟨2, 2, 2, 2, 0⟩, ⟨3, 3, 2, 2, 0⟩, ⟨4, 4, 4, 4, 0⟩, ⟨5, 5, 6, 6, 0⟩,
      ⟨6, 6, 3, 3, 0⟩, ⟨7, 7, 9, 9, 0⟩, ⟨8, 8, 5, 5, 0⟩, ⟨9, 9, 12, 12, 0⟩, ⟨10, 10, 7, 7, 0⟩,
      ⟨11, 11, 14, 14, 0⟩, ⟨12, 12, 15, 15, 0⟩, ⟨13, 13, 17, 17, 0⟩, ⟨14, 14, 16, 16, 0⟩,
      ⟨15, 15, 4, 4, 0⟩, ⟨16, 16, 19, 19, 0⟩]⟩,
    ⟨[.plus 0, .plus 2, .times 1], [1, -2, 1], some [
      ⟨1, 1, 0, 34, 0⟩, ⟨2, 2, 2, 0, 0⟩, ⟨3, 3, 2, 0, 0⟩, ⟨4, 4, 4, 11, 0⟩, ⟨5, 5, 6, 2, 0⟩,
      ⟨6, 6, 3, 1, 0⟩, ⟨7, 7, 9, 25, 0⟩, ⟨8, 8, 5, 35, 0⟩, ⟨9, 9, 12, 36, 0⟩, ⟨10, 10, 7, 3, 0⟩,
      ⟨11, 11, 14, 9, 0⟩, ⟨12, 12, 15, 5, 0⟩, ⟨13, 13, 17, 12, 0⟩, ⟨14, 14, 16, 10, 0⟩,
      ⟨15, 15, 4, 11, 0⟩, ⟨16, 16, 19, 27, 0⟩]⟩,
    ⟨[.plus 0, .plus (-2), .times 1], [1, 2, 1], some [
      ⟨1, 1, 0, 2, 0⟩, ⟨2, 2, 2, 6, 0⟩, ⟨3, 3, 2, 6, 0⟩, ⟨4, 4, 4, 23, 0⟩, ⟨5, 5, 6, 37, 0⟩,
      ⟨6, 6, 3, 7, 0⟩, ⟨7, 7, 9, 14, 0⟩, ⟨8, 8, 5, 15, 0⟩, ⟨9, 9, 12, 17, 0⟩, ⟨10, 10, 7, 20, 0⟩,
      ⟨11, 11, 14, 30, 0⟩, ⟨12, 12, 15, 38, 0⟩, ⟨13, 13, 17, 39, 0⟩, ⟨14, 14, 16, 22, 0⟩,
      ⟨15, 15, 4, 23, 0⟩, ⟨16, 16, 19, 32, 0⟩]⟩]

/-- The label expressions in the operator tables of `NONE`. -/
def labs_NONE : List LabelExpr := [
  [.const 0]]

/-- `recalc_doublet` in `nrg-recalc-NONE.hpp:105-`, 1 channel(s): `none-1ch-doublet.dat`. -/
def op_NONE_1ch_doublet : OpTable where
  builtin := ⟨"NONE", 1, fields_NONE, tab_NONE_1ch⟩
  kind := .doublet
  labs := labs_NONE
  targets := [
    ⟨[.const 0], [0], some [
      ⟨1, 1, 0, 0, 0⟩, ⟨2, 2, 0, 0, 1⟩, ⟨3, 3, 0, 0, 1⟩, ⟨4, 4, 0, 0, 0⟩]⟩]

/-- `recalc_doublet` in `nrg-recalc-NONE.hpp:105-`, 2 channel(s): `none-2ch-doublet.dat`. -/
def op_NONE_2ch_doublet : OpTable where
  builtin := ⟨"NONE", 2, fields_NONE, tab_NONE_2ch⟩
  kind := .doublet
  labs := labs_NONE
  targets := [
    ⟨[.const 0], [0], some [
      ⟨1, 1, 0, 0, 0⟩, ⟨2, 2, 0, 0, 1⟩, ⟨3, 3, 0, 0, 1⟩, ⟨4, 4, 0, 0, 0⟩, ⟨5, 5, 0, 0, 1⟩,
      ⟨6, 6, 0, 0, 0⟩, ⟨7, 7, 0, 0, 0⟩, ⟨8, 8, 0, 0, 1⟩, ⟨9, 9, 0, 0, 1⟩, ⟨10, 10, 0, 0, 0⟩,
      ⟨11, 11, 0, 0, 0⟩, ⟨12, 12, 0, 0, 1⟩, ⟨13, 13, 0, 0, 0⟩, ⟨14, 14, 0, 0, 1⟩,
      ⟨15, 15, 0, 0, 1⟩, ⟨16, 16, 0, 0, 0⟩]⟩]

/-- The label expressions in the operator tables of `P`. -/
def labs_P : List LabelExpr := [
  [.times (-1)],
  [.times 1]]

/-- `recalc_doublet` in `nrg-recalc-P.hpp:167-`, 1 channel(s): `p-1ch-doublet.dat`. -/
def op_P_1ch_doublet : OpTable where
  builtin := ⟨"P", 1, fields_P, tab_P_1ch⟩
  kind := .doublet
  labs := labs_P
  targets := [
    ⟨[.times (-1)], [-1], some [
      ⟨1, 1, 0, 1, 0⟩, ⟨2, 2, 0, 1, 0⟩, ⟨3, 3, 1, 0, 0⟩, ⟨4, 4, 1, 0, 0⟩]⟩]

/-- `recalc_doublet` in `nrg-recalc-P.hpp:167-`, 2 channel(s): `p-2ch-doublet.dat`. -/
def op_P_2ch_doublet : OpTable where
  builtin := ⟨"P", 2, fields_P, tab_P_2ch⟩
  kind := .doublet
  labs := labs_P
  targets := [
    ⟨[.times (-1)], [-1], some [
      ⟨1, 1, 0, 1, 0⟩, ⟨2, 2, 0, 1, 0⟩, ⟨3, 3, 0, 1, 0⟩, ⟨4, 4, 0, 1, 0⟩, ⟨5, 5, 0, 1, 0⟩,
      ⟨6, 6, 0, 1, 0⟩, ⟨7, 7, 0, 1, 0⟩, ⟨8, 8, 0, 1, 0⟩, ⟨9, 9, 1, 0, 0⟩, ⟨10, 10, 1, 0, 0⟩,
      ⟨11, 11, 1, 0, 0⟩, ⟨12, 12, 1, 0, 0⟩, ⟨13, 13, 1, 0, 0⟩, ⟨14, 14, 1, 0, 0⟩,
      ⟨15, 15, 1, 0, 0⟩, ⟨16, 16, 1, 0, 0⟩]⟩]

/-- The label expressions in the operator tables of `QJ`. -/
def labs_QJ : List LabelExpr := [
  [.plus 3, .plus 0],
  [.plus 2, .plus 1],
  [.plus 2, .plus (-1)],
  [.plus 1, .plus 0],
  [.plus 1, .plus 2],
  [.plus 2, .plus (-3)],
  [.plus 1, .plus (-2)],
  [.plus 2, .plus 3],
  [.plus 1, .plus 4],
  [.plus 0, .plus 1],
  [.plus 0, .plus (-1)],
  [.plus 0, .plus 3],
  [.plus 1, .plus (-4)],
  [.plus 0, .plus (-3)],
  [.plus 0, .plus 5],
  [.plus (-1), .plus 0],
  [.plus (-1), .plus 2],
  [.plus (-1), .plus (-2)],
  [.plus (-1), .plus 4],
  [.plus 0, .plus (-5)],
  [.plus (-1), .plus (-4)],
  [.plus (-1), .plus 6],
  [.plus (-2), .plus 1],
  [.plus (-2), .plus (-1)],
  [.plus (-2), .plus 3],
  [.plus (-2), .plus (-3)],
  [.plus (-2), .plus 5],
  [.plus (-3), .plus 0],
  [.plus (-3), .plus 2],
  [.plus (-3), .plus (-2)],
  [.plus (-3), .plus 4],
  [.plus (-4), .plus 1],
  [.plus (-1), .plus (-6)],
  [.plus (-2), .plus (-5)],
  [.plus (-3), .plus (-4)],
  [.plus (-4), .plus (-1)],
  [.plus 1, .plus 6],
  [.plus 0, .plus 7],
  [.plus (-1), .plus 8],
  [.plus (-2), .plus 7],
  [.plus (-3), .plus 6],
  [.plus (-4), .plus 3],
  [.plus 1, .plus (-6)],
  [.plus 0, .plus (-7)],
  [.plus (-1), .plus (-8)],
  [.plus (-2), .plus (-7)],
  [.plus (-3), .plus (-6)],
  [.plus (-4), .plus (-3)]]

/-- `recalc_doublet` in `nrg-recalc-QJ.hpp:33-`, 3 channel(s): `qj-doubletp.dat`, `qj-doubletm.dat`. -/
def op_QJ_3ch_doublet : OpTable where
  builtin := ⟨"QJ", 3, fields_QJ, tab_QJ_3ch⟩
  kind := .doublet
  labs := labs_QJ
  targets := [
    ⟨[.plus (-1), .plus 1], [1, 2], some [
      ⟨1, 1, 0, 1, 0⟩, ⟨2, 2, 2, 3, 1⟩, ⟨3, 2, 1, 3, 2⟩, ⟨3, 3, 1, 4, 3⟩, ⟨4, 4, 5, 6, 4⟩,
      ⟨5, 4, 2, 6, 5⟩, ⟨5, 5, 2, 3, 6⟩, ⟨6, 5, 1, 3, 7⟩, ⟨6, 6, 1, 4, 8⟩, ⟨7, 6, 7, 4, 9⟩,
      ⟨7, 7, 7, 8, 3⟩, ⟨8, 8, 3, 9, 0⟩, ⟨9, 9, 3, 9, 0⟩, ⟨10, 10, 6, 10, 10⟩,
      ⟨11, 10, 3, 10, 11⟩, ⟨11, 11, 3, 9, 12⟩, ⟨12, 11, 4, 9, 13⟩, ⟨12, 12, 4, 11, 0⟩,
      ⟨13, 13, 12, 13, 14⟩, ⟨14, 13, 6, 13, 15⟩, ⟨14, 14, 6, 10, 16⟩, ⟨15, 14, 3, 10, 17⟩,
      ⟨15, 15, 3, 9, 18⟩, ⟨16, 15, 4, 9, 19⟩, ⟨16, 16, 4, 11, 20⟩, ⟨17, 16, 8, 11, 21⟩,
      ⟨17, 17, 8, 14, 0⟩, ⟨18, 18, 12, 13, 14⟩, ⟨19, 18, 6, 13, 15⟩, ⟨19, 19, 6, 10, 16⟩,
      ⟨20, 19, 3, 10, 17⟩, ⟨20, 20, 3, 9, 18⟩, ⟨21, 20, 4, 9, 19⟩, ⟨21, 21, 4, 11, 20⟩,
      ⟨22, 21, 8, 11, 21⟩, ⟨22, 22, 8, 14, 0⟩, ⟨23, 23, 10, 15, 1⟩, ⟨24, 23, 9, 15, 2⟩,
      ⟨24, 24, 9, 16, 3⟩, ⟨25, 25, 13, 17, 4⟩, ⟨26, 25, 10, 17, 5⟩, ⟨26, 26, 10, 15, 6⟩,
      ⟨27, 26, 9, 15, 7⟩, ⟨27, 27, 9, 16, 8⟩, ⟨28, 27, 11, 16, 9⟩, ⟨28, 28, 11, 18, 3⟩,
      ⟨29, 29, 13, 17, 4⟩, ⟨30, 29, 10, 17, 5⟩, ⟨30, 30, 10, 15, 6⟩, ⟨31, 30, 9, 15, 7⟩,
      ⟨31, 31, 9, 16, 8⟩, ⟨32, 31, 11, 16, 9⟩, ⟨32, 32, 11, 18, 3⟩, ⟨33, 33, 13, 17, 4⟩,
      ⟨34, 33, 10, 17, 5⟩, ⟨34, 34, 10, 15, 6⟩, ⟨35, 34, 9, 15, 7⟩, ⟨35, 35, 9, 16, 8⟩,
      ⟨36, 35, 11, 16, 9⟩, ⟨36, 36, 11, 18, 3⟩, ⟨37, 37, 19, 20, 22⟩, ⟨38, 37, 13, 20, 23⟩,
      ⟨38, 38, 13, 17, 24⟩, ⟨39, 38, 10, 17, 25⟩, ⟨39, 39, 10, 15, 26⟩, ⟨40, 39, 9, 15, 27⟩,
      ⟨40, 40, 9, 16, 28⟩, ⟨41, 40, 11, 16, 29⟩, ⟨41, 41, 11, 18, 30⟩, ⟨42, 41, 14, 18, 31⟩,
      ⟨42, 42, 14, 21, 3⟩, ⟨43, 43, 15, 22, 0⟩, ⟨44, 44, 15, 22, 0⟩, ⟨45, 45, 17, 23, 10⟩,
      ⟨46, 45, 15, 23, 11⟩, ⟨46, 46, 15, 22, 12⟩, ⟨47, 46, 16, 22, 13⟩, ⟨47, 47, 16, 24, 0⟩,
      ⟨48, 48, 20, 25, 14⟩, ⟨49, 48, 17, 25, 15⟩, ⟨49, 49, 17, 23, 16⟩, ⟨50, 49, 15, 23, 17⟩,
      ⟨50, 50, 15, 22, 18⟩, ⟨51, 50, 16, 22, 19⟩, ⟨51, 51, 16, 24, 20⟩, ⟨52, 51, 18, 24, 21⟩,
      ⟨52, 52, 18, 26, 0⟩, ⟨53, 53, 20, 25, 14⟩, ⟨54, 53, 17, 25, 15⟩, ⟨54, 54, 17, 23, 16⟩,
      ⟨55, 54, 15, 23, 17⟩, ⟨55, 55, 15, 22, 18⟩, ⟨56, 55, 16, 22, 19⟩, ⟨56, 56, 16, 24, 20⟩,
      ⟨57, 56, 18, 24, 21⟩, ⟨57, 57, 18, 26, 0⟩, ⟨58, 58, 23, 27, 1⟩, ⟨59, 58, 22, 27, 2⟩,
      ⟨59, 59, 22, 28, 3⟩, ⟨60, 60, 25, 29, 4⟩, ⟨61, 60, 23, 29, 5⟩, ⟨61, 61, 23, 27, 6⟩,
      ⟨62, 61, 22, 27, 7⟩, ⟨62, 62, 22, 28, 8⟩, ⟨63, 62, 24, 28, 9⟩, ⟨63, 63, 24, 30, 3⟩,
      ⟨64, 64, 27, 31, 0⟩]⟩,
    ⟨[.plus (-1), .plus (-1)], [1, 2], some [
      ⟨1, 1, 0, 2, 0⟩, ⟨2, 2, 2, 6, 3⟩, ⟨2, 3, 2, 3, 32⟩, ⟨3, 3, 1, 3, 1⟩, ⟨4, 4, 5, 12, 3⟩,
      ⟨4, 5, 5, 6, 33⟩, ⟨5, 5, 2, 6, 34⟩, ⟨5, 6, 2, 3, 35⟩, ⟨6, 6, 1, 3, 6⟩, ⟨6, 7, 1, 4, 36⟩,
      ⟨7, 7, 7, 4, 37⟩, ⟨8, 8, 3, 10, 0⟩, ⟨9, 9, 3, 10, 0⟩, ⟨10, 10, 6, 13, 0⟩,
      ⟨10, 11, 6, 10, 38⟩, ⟨11, 11, 3, 10, 39⟩, ⟨11, 12, 3, 9, 40⟩, ⟨12, 12, 4, 9, 41⟩,
      ⟨13, 13, 12, 19, 0⟩, ⟨13, 14, 12, 13, 42⟩, ⟨14, 14, 6, 13, 43⟩, ⟨14, 15, 6, 10, 44⟩,
      ⟨15, 15, 3, 10, 45⟩, ⟨15, 16, 3, 9, 46⟩, ⟨16, 16, 4, 9, 47⟩, ⟨16, 17, 4, 11, 48⟩,
      ⟨17, 17, 8, 11, 49⟩, ⟨18, 18, 12, 19, 0⟩, ⟨18, 19, 12, 13, 42⟩, ⟨19, 19, 6, 13, 43⟩,
      ⟨19, 20, 6, 10, 44⟩, ⟨20, 20, 3, 10, 45⟩, ⟨20, 21, 3, 9, 46⟩, ⟨21, 21, 4, 9, 47⟩,
      ⟨21, 22, 4, 11, 48⟩, ⟨22, 22, 8, 11, 49⟩, ⟨23, 23, 10, 17, 3⟩, ⟨23, 24, 10, 15, 32⟩,
      ⟨24, 24, 9, 15, 1⟩, ⟨25, 25, 13, 20, 3⟩, ⟨25, 26, 13, 17, 33⟩, ⟨26, 26, 10, 17, 34⟩,
      ⟨26, 27, 10, 15, 35⟩, ⟨27, 27, 9, 15, 6⟩, ⟨27, 28, 9, 16, 36⟩, ⟨28, 28, 11, 16, 37⟩,
      ⟨29, 29, 13, 20, 3⟩, ⟨29, 30, 13, 17, 33⟩, ⟨30, 30, 10, 17, 34⟩, ⟨30, 31, 10, 15, 35⟩,
      ⟨31, 31, 9, 15, 6⟩, ⟨31, 32, 9, 16, 36⟩, ⟨32, 32, 11, 16, 37⟩, ⟨33, 33, 13, 20, 3⟩,
      ⟨33, 34, 13, 17, 33⟩, ⟨34, 34, 10, 17, 34⟩, ⟨34, 35, 10, 15, 35⟩, ⟨35, 35, 9, 15, 6⟩,
      ⟨35, 36, 9, 16, 36⟩, ⟨36, 36, 11, 16, 37⟩, ⟨37, 37, 19, 32, 3⟩, ⟨37, 38, 19, 20, 50⟩,
      ⟨38, 38, 13, 20, 51⟩, ⟨38, 39, 13, 17, 52⟩, ⟨39, 39, 10, 17, 24⟩, ⟨39, 40, 10, 15, 53⟩,
      ⟨40, 40, 9, 15, 26⟩, ⟨40, 41, 9, 16, 54⟩, ⟨41, 41, 11, 16, 55⟩, ⟨41, 42, 11, 18, 56⟩,
      ⟨42, 42, 14, 18, 57⟩, ⟨43, 43, 15, 23, 0⟩, ⟨44, 44, 15, 23, 0⟩, ⟨45, 45, 17, 25, 0⟩,
      ⟨45, 46, 17, 23, 38⟩, ⟨46, 46, 15, 23, 39⟩, ⟨46, 47, 15, 22, 40⟩, ⟨47, 47, 16, 22, 41⟩,
      ⟨48, 48, 20, 33, 0⟩, ⟨48, 49, 20, 25, 42⟩, ⟨49, 49, 17, 25, 43⟩, ⟨49, 50, 17, 23, 44⟩,
      ⟨50, 50, 15, 23, 45⟩, ⟨50, 51, 15, 22, 46⟩, ⟨51, 51, 16, 22, 47⟩, ⟨51, 52, 16, 24, 48⟩,
      ⟨52, 52, 18, 24, 49⟩, ⟨53, 53, 20, 33, 0⟩, ⟨53, 54, 20, 25, 42⟩, ⟨54, 54, 17, 25, 43⟩,
      ⟨54, 55, 17, 23, 44⟩, ⟨55, 55, 15, 23, 45⟩, ⟨55, 56, 15, 22, 46⟩, ⟨56, 56, 16, 22, 47⟩,
      ⟨56, 57, 16, 24, 48⟩, ⟨57, 57, 18, 24, 49⟩, ⟨58, 58, 23, 29, 3⟩, ⟨58, 59, 23, 27, 32⟩,
      ⟨59, 59, 22, 27, 1⟩, ⟨60, 60, 25, 34, 3⟩, ⟨60, 61, 25, 29, 33⟩, ⟨61, 61, 23, 29, 34⟩,
      ⟨61, 62, 23, 27, 35⟩, ⟨62, 62, 22, 27, 6⟩, ⟨62, 63, 22, 28, 36⟩, ⟨63, 63, 24, 28, 37⟩,
      ⟨64, 64, 27, 35, 0⟩]⟩]

/-- `recalc_quadruplet` in `nrg-recalc-QJ.hpp:74-`, 3 channel(s): `qj-quad1.dat`, `qj-quad2.dat`, `qj-quad3.dat`, `qj-quad4.dat`. -/
def op_QJ_3ch_quadruplet : OpTable where
  builtin := ⟨"QJ", 3, fields_QJ, tab_QJ_3ch⟩
  kind := .quadruplet
  labs := labs_QJ
  targets := [
    ⟨[.plus (-1), .plus 3], [1, 4], some [
      ⟨1, 1, 0, 7, 0⟩, ⟨2, 2, 2, 4, 58⟩, ⟨3, 2, 1, 4, 9⟩, ⟨3, 3, 1, 8, 3⟩, ⟨4, 4, 5, 3, 26⟩,
      ⟨5, 4, 2, 3, 59⟩, ⟨5, 5, 2, 4, 60⟩, ⟨6, 4, 1, 3, 61⟩, ⟨6, 5, 1, 4, 62⟩, ⟨6, 6, 1, 8, 63⟩,
      ⟨7, 4, 7, 3, 64⟩, ⟨7, 5, 7, 4, 65⟩, ⟨7, 6, 7, 8, 66⟩, ⟨7, 7, 7, 36, 3⟩, ⟨8, 8, 3, 11, 0⟩,
      ⟨9, 9, 3, 11, 0⟩, ⟨10, 10, 6, 9, 67⟩, ⟨11, 10, 3, 9, 68⟩, ⟨11, 11, 3, 11, 69⟩,
      ⟨12, 10, 4, 9, 70⟩, ⟨12, 11, 4, 11, 71⟩, ⟨12, 12, 4, 14, 0⟩, ⟨13, 13, 12, 10, 72⟩,
      ⟨14, 13, 6, 10, 73⟩, ⟨14, 14, 6, 9, 74⟩, ⟨15, 13, 3, 10, 75⟩, ⟨15, 14, 3, 9, 76⟩,
      ⟨15, 15, 3, 11, 77⟩, ⟨16, 13, 4, 10, 78⟩, ⟨16, 14, 4, 9, 79⟩, ⟨16, 15, 4, 11, 80⟩,
      ⟨16, 16, 4, 14, 81⟩, ⟨17, 14, 8, 9, 82⟩, ⟨17, 15, 8, 11, 83⟩, ⟨17, 16, 8, 14, 84⟩,
      ⟨17, 17, 8, 37, 0⟩, ⟨18, 18, 12, 10, 72⟩, ⟨19, 18, 6, 10, 73⟩, ⟨19, 19, 6, 9, 74⟩,
      ⟨20, 18, 3, 10, 75⟩, ⟨20, 19, 3, 9, 76⟩, ⟨20, 20, 3, 11, 77⟩, ⟨21, 18, 4, 10, 78⟩,
      ⟨21, 19, 4, 9, 79⟩, ⟨21, 20, 4, 11, 80⟩, ⟨21, 21, 4, 14, 81⟩, ⟨22, 19, 8, 9, 82⟩,
      ⟨22, 20, 8, 11, 83⟩, ⟨22, 21, 8, 14, 84⟩, ⟨22, 22, 8, 37, 0⟩, ⟨23, 23, 10, 16, 58⟩,
      ⟨24, 23, 9, 16, 9⟩, ⟨24, 24, 9, 18, 3⟩, ⟨25, 25, 13, 15, 26⟩, ⟨26, 25, 10, 15, 59⟩,
      ⟨26, 26, 10, 16, 60⟩, ⟨27, 25, 9, 15, 61⟩, ⟨27, 26, 9, 16, 62⟩, ⟨27, 27, 9, 18, 63⟩,
      ⟨28, 25, 11, 15, 64⟩, ⟨28, 26, 11, 16, 65⟩, ⟨28, 27, 11, 18, 66⟩, ⟨28, 28, 11, 21, 3⟩,
      ⟨29, 29, 13, 15, 26⟩, ⟨30, 29, 10, 15, 59⟩, ⟨30, 30, 10, 16, 60⟩, ⟨31, 29, 9, 15, 61⟩,
      ⟨31, 30, 9, 16, 62⟩, ⟨31, 31, 9, 18, 63⟩, ⟨32, 29, 11, 15, 64⟩, ⟨32, 30, 11, 16, 65⟩,
      ⟨32, 31, 11, 18, 66⟩, ⟨32, 32, 11, 21, 3⟩, ⟨33, 33, 13, 15, 26⟩, ⟨34, 33, 10, 15, 59⟩,
      ⟨34, 34, 10, 16, 60⟩, ⟨35, 33, 9, 15, 61⟩, ⟨35, 34, 9, 16, 62⟩, ⟨35, 35, 9, 18, 63⟩,
      ⟨36, 33, 11, 15, 64⟩, ⟨36, 34, 11, 16, 65⟩, ⟨36, 35, 11, 18, 66⟩, ⟨36, 36, 11, 21, 3⟩,
      ⟨37, 37, 19, 17, 85⟩, ⟨38, 37, 13, 17, 86⟩, ⟨38, 38, 13, 15, 87⟩, ⟨39, 37, 10, 17, 88⟩,
      ⟨39, 38, 10, 15, 89⟩, ⟨39, 39, 10, 16, 90⟩, ⟨40, 37, 9, 17, 91⟩, ⟨40, 38, 9, 15, 92⟩,
      ⟨40, 39, 9, 16, 93⟩, ⟨40, 40, 9, 18, 94⟩, ⟨41, 38, 11, 15, 95⟩, ⟨41, 39, 11, 16, 96⟩,
      ⟨41, 40, 11, 18, 97⟩, ⟨41, 41, 11, 21, 98⟩, ⟨42, 39, 14, 16, 99⟩, ⟨42, 40, 14, 18, 100⟩,
      ⟨42, 41, 14, 21, 101⟩, ⟨42, 42, 14, 38, 3⟩, ⟨43, 43, 15, 24, 0⟩, ⟨44, 44, 15, 24, 0⟩,
      ⟨45, 45, 17, 22, 67⟩, ⟨46, 45, 15, 22, 68⟩, ⟨46, 46, 15, 24, 69⟩, ⟨47, 45, 16, 22, 70⟩,
      ⟨47, 46, 16, 24, 71⟩, ⟨47, 47, 16, 26, 0⟩, ⟨48, 48, 20, 23, 72⟩, ⟨49, 48, 17, 23, 73⟩,
      ⟨49, 49, 17, 22, 74⟩, ⟨50, 48, 15, 23, 75⟩, ⟨50, 49, 15, 22, 76⟩, ⟨50, 50, 15, 24, 77⟩,
      ⟨51, 48, 16, 23, 78⟩, ⟨51, 49, 16, 22, 79⟩, ⟨51, 50, 16, 24, 80⟩, ⟨51, 51, 16, 26, 81⟩,
      ⟨52, 49, 18, 22, 82⟩, ⟨52, 50, 18, 24, 83⟩, ⟨52, 51, 18, 26, 84⟩, ⟨52, 52, 18, 39, 0⟩,
      ⟨53, 53, 20, 23, 72⟩, ⟨54, 53, 17, 23, 73⟩, ⟨54, 54, 17, 22, 74⟩, ⟨55, 53, 15, 23, 75⟩,
      ⟨55, 54, 15, 22, 76⟩, ⟨55, 55, 15, 24, 77⟩, ⟨56, 53, 16, 23, 78⟩, ⟨56, 54, 16, 22, 79⟩,
      ⟨56, 55, 16, 24, 80⟩, ⟨56, 56, 16, 26, 81⟩, ⟨57, 54, 18, 22, 82⟩, ⟨57, 55, 18, 24, 83⟩,
      ⟨57, 56, 18, 26, 84⟩, ⟨57, 57, 18, 39, 0⟩, ⟨58, 58, 23, 28, 58⟩, ⟨59, 58, 22, 28, 9⟩,
      ⟨59, 59, 22, 30, 3⟩, ⟨60, 60, 25, 27, 26⟩, ⟨61, 60, 23, 27, 59⟩, ⟨61, 61, 23, 28, 60⟩,
      ⟨62, 60, 22, 27, 61⟩, ⟨62, 61, 22, 28, 62⟩, ⟨62, 62, 22, 30, 63⟩, ⟨63, 60, 24, 27, 64⟩,
      ⟨63, 61, 24, 28, 65⟩, ⟨63, 62, 24, 30, 66⟩, ⟨63, 63, 24, 40, 3⟩, ⟨64, 64, 27, 41, 0⟩]⟩,
    ⟨[.plus (-1), .plus 1], [1, 4], some [
      ⟨1, 1, 0, 1, 0⟩, ⟨2, 2, 2, 3, 6⟩, ⟨2, 3, 2, 4, 102⟩, ⟨3, 2, 1, 3, 7⟩, ⟨3, 3, 1, 4, 103⟩,
      ⟨4, 4, 5, 6, 104⟩, ⟨4, 5, 5, 3, 105⟩, ⟨5, 4, 2, 6, 106⟩, ⟨5, 5, 2, 3, 107⟩,
      ⟨5, 6, 2, 4, 108⟩, ⟨6, 4, 1, 6, 109⟩, ⟨6, 5, 1, 3, 110⟩, ⟨6, 6, 1, 4, 111⟩,
      ⟨6, 7, 1, 8, 112⟩, ⟨7, 5, 7, 3, 113⟩, ⟨7, 6, 7, 4, 114⟩, ⟨7, 7, 7, 8, 63⟩, ⟨8, 8, 3, 9, 0⟩,
      ⟨9, 9, 3, 9, 0⟩, ⟨10, 10, 6, 10, 115⟩, ⟨10, 11, 6, 9, 116⟩, ⟨11, 10, 3, 10, 117⟩,
      ⟨11, 11, 3, 9, 118⟩, ⟨11, 12, 3, 11, 119⟩, ⟨12, 10, 4, 10, 120⟩, ⟨12, 11, 4, 9, 121⟩,
      ⟨12, 12, 4, 11, 122⟩, ⟨13, 13, 12, 13, 123⟩, ⟨13, 14, 12, 10, 124⟩, ⟨14, 13, 6, 13, 125⟩,
      ⟨14, 14, 6, 10, 126⟩, ⟨14, 15, 6, 9, 127⟩, ⟨15, 13, 3, 13, 128⟩, ⟨15, 14, 3, 10, 129⟩,
      ⟨15, 15, 3, 9, 130⟩, ⟨15, 16, 3, 11, 131⟩, ⟨16, 14, 4, 10, 132⟩, ⟨16, 15, 4, 9, 133⟩,
      ⟨16, 16, 4, 11, 134⟩, ⟨16, 17, 4, 14, 135⟩, ⟨17, 15, 8, 9, 136⟩, ⟨17, 16, 8, 11, 137⟩,
      ⟨17, 17, 8, 14, 81⟩, ⟨18, 18, 12, 13, 123⟩, ⟨18, 19, 12, 10, 124⟩, ⟨19, 18, 6, 13, 125⟩,
      ⟨19, 19, 6, 10, 126⟩, ⟨19, 20, 6, 9, 127⟩, ⟨20, 18, 3, 13, 128⟩, ⟨20, 19, 3, 10, 129⟩,
      ⟨20, 20, 3, 9, 130⟩, ⟨20, 21, 3, 11, 131⟩, ⟨21, 19, 4, 10, 132⟩, ⟨21, 20, 4, 9, 133⟩,
      ⟨21, 21, 4, 11, 134⟩, ⟨21, 22, 4, 14, 135⟩, ⟨22, 20, 8, 9, 136⟩, ⟨22, 21, 8, 11, 137⟩,
      ⟨22, 22, 8, 14, 81⟩, ⟨23, 23, 10, 15, 6⟩, ⟨23, 24, 10, 16, 102⟩, ⟨24, 23, 9, 15, 7⟩,
      ⟨24, 24, 9, 16, 103⟩, ⟨25, 25, 13, 17, 104⟩, ⟨25, 26, 13, 15, 105⟩, ⟨26, 25, 10, 17, 106⟩,
      ⟨26, 26, 10, 15, 107⟩, ⟨26, 27, 10, 16, 108⟩, ⟨27, 25, 9, 17, 109⟩, ⟨27, 26, 9, 15, 110⟩,
      ⟨27, 27, 9, 16, 111⟩, ⟨27, 28, 9, 18, 112⟩, ⟨28, 26, 11, 15, 113⟩, ⟨28, 27, 11, 16, 114⟩,
      ⟨28, 28, 11, 18, 63⟩, ⟨29, 29, 13, 17, 104⟩, ⟨29, 30, 13, 15, 105⟩, ⟨30, 29, 10, 17, 106⟩,
      ⟨30, 30, 10, 15, 107⟩, ⟨30, 31, 10, 16, 108⟩, ⟨31, 29, 9, 17, 109⟩, ⟨31, 30, 9, 15, 110⟩,
      ⟨31, 31, 9, 16, 111⟩, ⟨31, 32, 9, 18, 112⟩, ⟨32, 30, 11, 15, 113⟩, ⟨32, 31, 11, 16, 114⟩,
      ⟨32, 32, 11, 18, 63⟩, ⟨33, 33, 13, 17, 104⟩, ⟨33, 34, 13, 15, 105⟩, ⟨34, 33, 10, 17, 106⟩,
      ⟨34, 34, 10, 15, 107⟩, ⟨34, 35, 10, 16, 108⟩, ⟨35, 33, 9, 17, 109⟩, ⟨35, 34, 9, 15, 110⟩,
      ⟨35, 35, 9, 16, 111⟩, ⟨35, 36, 9, 18, 112⟩, ⟨36, 34, 11, 15, 113⟩, ⟨36, 35, 11, 16, 114⟩,
      ⟨36, 36, 11, 18, 63⟩, ⟨37, 37, 19, 20, 138⟩, ⟨37, 38, 19, 17, 139⟩, ⟨38, 37, 13, 20, 140⟩,
      ⟨38, 38, 13, 17, 141⟩, ⟨38, 39, 13, 15, 142⟩, ⟨39, 37, 10, 20, 143⟩, ⟨39, 38, 10, 17, 144⟩,
      ⟨39, 39, 10, 15, 145⟩, ⟨39, 40, 10, 16, 146⟩, ⟨40, 38, 9, 17, 147⟩, ⟨40, 39, 9, 15, 148⟩,
      ⟨40, 40, 9, 16, 149⟩, ⟨40, 41, 9, 18, 150⟩, ⟨41, 39, 11, 15, 151⟩, ⟨41, 40, 11, 16, 152⟩,
      ⟨41, 41, 11, 18, 153⟩, ⟨41, 42, 11, 21, 154⟩, ⟨42, 40, 14, 16, 155⟩, ⟨42, 41, 14, 18, 156⟩,
      ⟨42, 42, 14, 21, 157⟩, ⟨43, 43, 15, 22, 0⟩, ⟨44, 44, 15, 22, 0⟩, ⟨45, 45, 17, 23, 115⟩,
      ⟨45, 46, 17, 22, 116⟩, ⟨46, 45, 15, 23, 117⟩, ⟨46, 46, 15, 22, 118⟩, ⟨46, 47, 15, 24, 119⟩,
      ⟨47, 45, 16, 23, 120⟩, ⟨47, 46, 16, 22, 121⟩, ⟨47, 47, 16, 24, 122⟩, ⟨48, 48, 20, 25, 123⟩,
      ⟨48, 49, 20, 23, 124⟩, ⟨49, 48, 17, 25, 125⟩, ⟨49, 49, 17, 23, 126⟩, ⟨49, 50, 17, 22, 127⟩,
      ⟨50, 48, 15, 25, 128⟩, ⟨50, 49, 15, 23, 129⟩, ⟨50, 50, 15, 22, 130⟩, ⟨50, 51, 15, 24, 131⟩,
      ⟨51, 49, 16, 23, 132⟩, ⟨51, 50, 16, 22, 133⟩, ⟨51, 51, 16, 24, 134⟩, ⟨51, 52, 16, 26, 135⟩,
      ⟨52, 50, 18, 22, 136⟩, ⟨52, 51, 18, 24, 137⟩, ⟨52, 52, 18, 26, 81⟩, ⟨53, 53, 20, 25, 123⟩,
      ⟨53, 54, 20, 23, 124⟩, ⟨54, 53, 17, 25, 125⟩, ⟨54, 54, 17, 23, 126⟩, ⟨54, 55, 17, 22, 127⟩,
      ⟨55, 53, 15, 25, 128⟩, ⟨55, 54, 15, 23, 129⟩, ⟨55, 55, 15, 22, 130⟩, ⟨55, 56, 15, 24, 131⟩,
      ⟨56, 54, 16, 23, 132⟩, ⟨56, 55, 16, 22, 133⟩, ⟨56, 56, 16, 24, 134⟩, ⟨56, 57, 16, 26, 135⟩,
      ⟨57, 55, 18, 22, 136⟩, ⟨57, 56, 18, 24, 137⟩, ⟨57, 57, 18, 26, 81⟩, ⟨58, 58, 23, 27, 6⟩,
      ⟨58, 59, 23, 28, 102⟩, ⟨59, 58, 22, 27, 7⟩, ⟨59, 59, 22, 28, 103⟩, ⟨60, 60, 25, 29, 104⟩,
      ⟨60, 61, 25, 27, 105⟩, ⟨61, 60, 23, 29, 106⟩, ⟨61, 61, 23, 27, 107⟩, ⟨61, 62, 23, 28, 108⟩,
      ⟨62, 60, 22, 29, 109⟩, ⟨62, 61, 22, 27, 110⟩, ⟨62, 62, 22, 28, 111⟩, ⟨62, 63, 22, 30, 112⟩,
      ⟨63, 61, 24, 27, 113⟩, ⟨63, 62, 24, 28, 114⟩, ⟨63, 63, 24, 30, 63⟩, ⟨64, 64, 27, 31, 0⟩]⟩,
    ⟨[.plus (-1), .plus (-1)], [1, 4], some [
      ⟨1, 1, 0, 2, 0⟩, ⟨2, 2, 2, 6, 4⟩, ⟨2, 3, 2, 3, 35⟩, ⟨3, 2, 1, 6, 5⟩, ⟨3, 3, 1, 3, 6⟩,
      ⟨4, 4, 5, 12, 158⟩, ⟨4, 5, 5, 6, 159⟩, ⟨4, 6, 5, 3, 160⟩, ⟨5, 4, 2, 12, 161⟩,
      ⟨5, 5, 2, 6, 162⟩, ⟨5, 6, 2, 3, 163⟩, ⟨5, 7, 2, 4, 164⟩, ⟨6, 5, 1, 6, 165⟩,
      ⟨6, 6, 1, 3, 166⟩, ⟨6, 7, 1, 4, 167⟩, ⟨7, 6, 7, 3, 168⟩, ⟨7, 7, 7, 4, 169⟩,
      ⟨8, 8, 3, 10, 0⟩, ⟨9, 9, 3, 10, 0⟩, ⟨10, 10, 6, 13, 170⟩, ⟨10, 11, 6, 10, 171⟩,
      ⟨10, 12, 6, 9, 120⟩, ⟨11, 10, 3, 13, 172⟩, ⟨11, 11, 3, 10, 173⟩, ⟨11, 12, 3, 9, 174⟩,
      ⟨12, 11, 4, 10, 175⟩, ⟨12, 12, 4, 9, 176⟩, ⟨13, 13, 12, 19, 177⟩, ⟨13, 14, 12, 13, 178⟩,
      ⟨13, 15, 12, 10, 179⟩, ⟨14, 13, 6, 19, 180⟩, ⟨14, 14, 6, 13, 181⟩, ⟨14, 15, 6, 10, 182⟩,
      ⟨14, 16, 6, 9, 183⟩, ⟨15, 14, 3, 13, 184⟩, ⟨15, 15, 3, 10, 185⟩, ⟨15, 16, 3, 9, 186⟩,
      ⟨15, 17, 3, 11, 187⟩, ⟨16, 15, 4, 10, 188⟩, ⟨16, 16, 4, 9, 189⟩, ⟨16, 17, 4, 11, 190⟩,
      ⟨17, 16, 8, 9, 191⟩, ⟨17, 17, 8, 11, 192⟩, ⟨18, 18, 12, 19, 177⟩, ⟨18, 19, 12, 13, 178⟩,
      ⟨18, 20, 12, 10, 179⟩, ⟨19, 18, 6, 19, 180⟩, ⟨19, 19, 6, 13, 181⟩, ⟨19, 20, 6, 10, 182⟩,
      ⟨19, 21, 6, 9, 183⟩, ⟨20, 19, 3, 13, 184⟩, ⟨20, 20, 3, 10, 185⟩, ⟨20, 21, 3, 9, 186⟩,
      ⟨20, 22, 3, 11, 187⟩, ⟨21, 20, 4, 10, 188⟩, ⟨21, 21, 4, 9, 189⟩, ⟨21, 22, 4, 11, 190⟩,
      ⟨22, 21, 8, 9, 191⟩, ⟨22, 22, 8, 11, 192⟩, ⟨23, 23, 10, 17, 4⟩, ⟨23, 24, 10, 15, 35⟩,
      ⟨24, 23, 9, 17, 5⟩, ⟨24, 24, 9, 15, 6⟩, ⟨25, 25, 13, 20, 158⟩, ⟨25, 26, 13, 17, 159⟩,
      ⟨25, 27, 13, 15, 160⟩, ⟨26, 25, 10, 20, 161⟩, ⟨26, 26, 10, 17, 162⟩, ⟨26, 27, 10, 15, 163⟩,
      ⟨26, 28, 10, 16, 164⟩, ⟨27, 26, 9, 17, 165⟩, ⟨27, 27, 9, 15, 166⟩, ⟨27, 28, 9, 16, 167⟩,
      ⟨28, 27, 11, 15, 168⟩, ⟨28, 28, 11, 16, 169⟩, ⟨29, 29, 13, 20, 158⟩, ⟨29, 30, 13, 17, 159⟩,
      ⟨29, 31, 13, 15, 160⟩, ⟨30, 29, 10, 20, 161⟩, ⟨30, 30, 10, 17, 162⟩, ⟨30, 31, 10, 15, 163⟩,
      ⟨30, 32, 10, 16, 164⟩, ⟨31, 30, 9, 17, 165⟩, ⟨31, 31, 9, 15, 166⟩, ⟨31, 32, 9, 16, 167⟩,
      ⟨32, 31, 11, 15, 168⟩, ⟨32, 32, 11, 16, 169⟩, ⟨33, 33, 13, 20, 158⟩, ⟨33, 34, 13, 17, 159⟩,
      ⟨33, 35, 13, 15, 160⟩, ⟨34, 33, 10, 20, 161⟩, ⟨34, 34, 10, 17, 162⟩, ⟨34, 35, 10, 15, 163⟩,
      ⟨34, 36, 10, 16, 164⟩, ⟨35, 34, 9, 17, 165⟩, ⟨35, 35, 9, 15, 166⟩, ⟨35, 36, 9, 16, 167⟩,
      ⟨36, 35, 11, 15, 168⟩, ⟨36, 36, 11, 16, 169⟩, ⟨37, 37, 19, 32, 193⟩, ⟨37, 38, 19, 20, 194⟩,
      ⟨37, 39, 19, 17, 195⟩, ⟨38, 37, 13, 32, 196⟩, ⟨38, 38, 13, 20, 197⟩, ⟨38, 39, 13, 17, 198⟩,
      ⟨38, 40, 13, 15, 199⟩, ⟨39, 38, 10, 20, 200⟩, ⟨39, 39, 10, 17, 201⟩, ⟨39, 40, 10, 15, 202⟩,
      ⟨39, 41, 10, 16, 203⟩, ⟨40, 39, 9, 17, 204⟩, ⟨40, 40, 9, 15, 205⟩, ⟨40, 41, 9, 16, 206⟩,
      ⟨40, 42, 9, 18, 207⟩, ⟨41, 40, 11, 15, 208⟩, ⟨41, 41, 11, 16, 209⟩, ⟨41, 42, 11, 18, 210⟩,
      ⟨42, 41, 14, 16, 211⟩, ⟨42, 42, 14, 18, 212⟩, ⟨43, 43, 15, 23, 0⟩, ⟨44, 44, 15, 23, 0⟩,
      ⟨45, 45, 17, 25, 170⟩, ⟨45, 46, 17, 23, 171⟩, ⟨45, 47, 17, 22, 120⟩, ⟨46, 45, 15, 25, 172⟩,
      ⟨46, 46, 15, 23, 173⟩, ⟨46, 47, 15, 22, 174⟩, ⟨47, 46, 16, 23, 175⟩, ⟨47, 47, 16, 22, 176⟩,
      ⟨48, 48, 20, 33, 177⟩, ⟨48, 49, 20, 25, 178⟩, ⟨48, 50, 20, 23, 179⟩, ⟨49, 48, 17, 33, 180⟩,
      ⟨49, 49, 17, 25, 181⟩, ⟨49, 50, 17, 23, 182⟩, ⟨49, 51, 17, 22, 183⟩, ⟨50, 49, 15, 25, 184⟩,
      ⟨50, 50, 15, 23, 185⟩, ⟨50, 51, 15, 22, 186⟩, ⟨50, 52, 15, 24, 187⟩, ⟨51, 50, 16, 23, 188⟩,
      ⟨51, 51, 16, 22, 189⟩, ⟨51, 52, 16, 24, 190⟩, ⟨52, 51, 18, 22, 191⟩, ⟨52, 52, 18, 24, 192⟩,
      ⟨53, 53, 20, 33, 177⟩, ⟨53, 54, 20, 25, 178⟩, ⟨53, 55, 20, 23, 179⟩, ⟨54, 53, 17, 33, 180⟩,
      ⟨54, 54, 17, 25, 181⟩, ⟨54, 55, 17, 23, 182⟩, ⟨54, 56, 17, 22, 183⟩, ⟨55, 54, 15, 25, 184⟩,
      ⟨55, 55, 15, 23, 185⟩, ⟨55, 56, 15, 22, 186⟩, ⟨55, 57, 15, 24, 187⟩, ⟨56, 55, 16, 23, 188⟩,
      ⟨56, 56, 16, 22, 189⟩, ⟨56, 57, 16, 24, 190⟩, ⟨57, 56, 18, 22, 191⟩, ⟨57, 57, 18, 24, 192⟩,
      ⟨58, 58, 23, 29, 4⟩, ⟨58, 59, 23, 27, 35⟩, ⟨59, 58, 22, 29, 5⟩, ⟨59, 59, 22, 27, 6⟩,
      ⟨60, 60, 25, 34, 158⟩, ⟨60, 61, 25, 29, 159⟩, ⟨60, 62, 25, 27, 160⟩, ⟨61, 60, 23, 34, 161⟩,
      ⟨61, 61, 23, 29, 162⟩, ⟨61, 62, 23, 27, 163⟩, ⟨61, 63, 23, 28, 164⟩, ⟨62, 61, 22, 29, 165⟩,
      ⟨62, 62, 22, 27, 166⟩, ⟨62, 63, 22, 28, 167⟩, ⟨63, 62, 24, 27, 168⟩, ⟨63, 63, 24, 28, 169⟩,
      ⟨64, 64, 27, 35, 0⟩]⟩,
    ⟨[.plus (-1), .plus (-3)], [1, 4], some [
      ⟨1, 1, 0, 5, 0⟩, ⟨2, 2, 2, 12, 3⟩, ⟨2, 3, 2, 6, 33⟩, ⟨3, 3, 1, 6, 213⟩, ⟨4, 4, 5, 42, 3⟩,
      ⟨4, 5, 5, 12, 214⟩, ⟨4, 6, 5, 6, 215⟩, ⟨4, 7, 5, 3, 216⟩, ⟨5, 5, 2, 12, 217⟩,
      ⟨5, 6, 2, 6, 218⟩, ⟨5, 7, 2, 3, 160⟩, ⟨6, 6, 1, 6, 219⟩, ⟨6, 7, 1, 3, 220⟩,
      ⟨7, 7, 7, 3, 221⟩, ⟨8, 8, 3, 13, 0⟩, ⟨9, 9, 3, 13, 0⟩, ⟨10, 10, 6, 19, 0⟩,
      ⟨10, 11, 6, 13, 222⟩, ⟨10, 12, 6, 10, 223⟩, ⟨11, 11, 3, 13, 224⟩, ⟨11, 12, 3, 10, 225⟩,
      ⟨12, 12, 4, 10, 226⟩, ⟨13, 13, 12, 43, 0⟩, ⟨13, 14, 12, 19, 227⟩, ⟨13, 15, 12, 13, 228⟩,
      ⟨13, 16, 12, 10, 229⟩, ⟨14, 14, 6, 19, 230⟩, ⟨14, 15, 6, 13, 231⟩, ⟨14, 16, 6, 10, 232⟩,
      ⟨14, 17, 6, 9, 233⟩, ⟨15, 15, 3, 13, 234⟩, ⟨15, 16, 3, 10, 235⟩, ⟨15, 17, 3, 9, 236⟩,
      ⟨16, 16, 4, 10, 237⟩, ⟨16, 17, 4, 9, 238⟩, ⟨17, 17, 8, 9, 239⟩, ⟨18, 18, 12, 43, 0⟩,
      ⟨18, 19, 12, 19, 227⟩, ⟨18, 20, 12, 13, 228⟩, ⟨18, 21, 12, 10, 229⟩, ⟨19, 19, 6, 19, 230⟩,
      ⟨19, 20, 6, 13, 231⟩, ⟨19, 21, 6, 10, 232⟩, ⟨19, 22, 6, 9, 233⟩, ⟨20, 20, 3, 13, 234⟩,
      ⟨20, 21, 3, 10, 235⟩, ⟨20, 22, 3, 9, 236⟩, ⟨21, 21, 4, 10, 237⟩, ⟨21, 22, 4, 9, 238⟩,
      ⟨22, 22, 8, 9, 239⟩, ⟨23, 23, 10, 20, 3⟩, ⟨23, 24, 10, 17, 33⟩, ⟨24, 24, 9, 17, 213⟩,
      ⟨25, 25, 13, 32, 3⟩, ⟨25, 26, 13, 20, 214⟩, ⟨25, 27, 13, 17, 215⟩, ⟨25, 28, 13, 15, 216⟩,
      ⟨26, 26, 10, 20, 217⟩, ⟨26, 27, 10, 17, 218⟩, ⟨26, 28, 10, 15, 160⟩, ⟨27, 27, 9, 17, 219⟩,
      ⟨27, 28, 9, 15, 220⟩, ⟨28, 28, 11, 15, 221⟩, ⟨29, 29, 13, 32, 3⟩, ⟨29, 30, 13, 20, 214⟩,
      ⟨29, 31, 13, 17, 215⟩, ⟨29, 32, 13, 15, 216⟩, ⟨30, 30, 10, 20, 217⟩, ⟨30, 31, 10, 17, 218⟩,
      ⟨30, 32, 10, 15, 160⟩, ⟨31, 31, 9, 17, 219⟩, ⟨31, 32, 9, 15, 220⟩, ⟨32, 32, 11, 15, 221⟩,
      ⟨33, 33, 13, 32, 3⟩, ⟨33, 34, 13, 20, 214⟩, ⟨33, 35, 13, 17, 215⟩, ⟨33, 36, 13, 15, 216⟩,
      ⟨34, 34, 10, 20, 217⟩, ⟨34, 35, 10, 17, 218⟩, ⟨34, 36, 10, 15, 160⟩, ⟨35, 35, 9, 17, 219⟩,
      ⟨35, 36, 9, 15, 220⟩, ⟨36, 36, 11, 15, 221⟩, ⟨37, 37, 19, 44, 3⟩, ⟨37, 38, 19, 32, 240⟩,
      ⟨37, 39, 19, 20, 241⟩, ⟨37, 40, 19, 17, 242⟩, ⟨38, 38, 13, 32, 243⟩, ⟨38, 39, 13, 20, 244⟩,
      ⟨38, 40, 13, 17, 245⟩, ⟨38, 41, 13, 15, 246⟩, ⟨39, 39, 10, 20, 247⟩, ⟨39, 40, 10, 17, 248⟩,
      ⟨39, 41, 10, 15, 249⟩, ⟨39, 42, 10, 16, 250⟩, ⟨40, 40, 9, 17, 251⟩, ⟨40, 41, 9, 15, 252⟩,
      ⟨40, 42, 9, 16, 253⟩, ⟨41, 41, 11, 15, 254⟩, ⟨41, 42, 11, 16, 255⟩, ⟨42, 42, 14, 16, 256⟩,
      ⟨43, 43, 15, 25, 0⟩, ⟨44, 44, 15, 25, 0⟩, ⟨45, 45, 17, 33, 0⟩, ⟨45, 46, 17, 25, 222⟩,
      ⟨45, 47, 17, 23, 223⟩, ⟨46, 46, 15, 25, 224⟩, ⟨46, 47, 15, 23, 225⟩, ⟨47, 47, 16, 23, 226⟩,
      ⟨48, 48, 20, 45, 0⟩, ⟨48, 49, 20, 33, 227⟩, ⟨48, 50, 20, 25, 228⟩, ⟨48, 51, 20, 23, 229⟩,
      ⟨49, 49, 17, 33, 230⟩, ⟨49, 50, 17, 25, 231⟩, ⟨49, 51, 17, 23, 232⟩, ⟨49, 52, 17, 22, 233⟩,
      ⟨50, 50, 15, 25, 234⟩, ⟨50, 51, 15, 23, 235⟩, ⟨50, 52, 15, 22, 236⟩, ⟨51, 51, 16, 23, 257⟩,
      ⟨51, 52, 16, 22, 238⟩, ⟨52, 52, 18, 22, 239⟩, ⟨53, 53, 20, 45, 0⟩, ⟨53, 54, 20, 33, 227⟩,
      ⟨53, 55, 20, 25, 228⟩, ⟨53, 56, 20, 23, 229⟩, ⟨54, 54, 17, 33, 230⟩, ⟨54, 55, 17, 25, 231⟩,
      ⟨54, 56, 17, 23, 232⟩, ⟨54, 57, 17, 22, 233⟩, ⟨55, 55, 15, 25, 234⟩, ⟨55, 56, 15, 23, 235⟩,
      ⟨55, 57, 15, 22, 236⟩, ⟨56, 56, 16, 23, 257⟩, ⟨56, 57, 16, 22, 238⟩, ⟨57, 57, 18, 22, 239⟩,
      ⟨58, 58, 23, 34, 3⟩, ⟨58, 59, 23, 29, 33⟩, ⟨59, 59, 22, 29, 213⟩, ⟨60, 60, 25, 46, 3⟩,
      ⟨60, 61, 25, 34, 214⟩, ⟨60, 62, 25, 29, 215⟩, ⟨60, 63, 25, 27, 216⟩, ⟨61, 61, 23, 34, 217⟩,
      ⟨61, 62, 23, 29, 218⟩, ⟨61, 63, 23, 27, 160⟩, ⟨62, 62, 22, 29, 219⟩, ⟨62, 63, 22, 27, 220⟩,
      ⟨63, 63, 24, 27, 221⟩, ⟨64, 64, 27, 47, 0⟩]⟩]

/-- The label expressions in the operator tables of `QSLR`. -/
def labs_QSLR : List LabelExpr := [
  [.plus 2, .plus 0, .times 1],
  [.plus 1, .plus 1, .times 1],
  [.plus 1, .plus (-1), .times (-1)],
  [.plus 0, .plus 0, .times (-1)],
  [.plus 1, .plus 1, .times (-1)],
  [.plus 0, .plus 2, .times (-1)],
  [.plus 1, .plus (-1), .times 1],
  [.plus 0, .plus 0, .times 1],
  [.plus 0, .plus 2, .times 1],
  [.plus (-1), .plus 1, .times (-1)],
  [.plus (-1), .plus 1, .times 1],
  [.plus 0, .plus (-2), .times (-1)],
  [.plus (-1), .plus (-1), .times (-1)],
  [.plus (-1), .plus 3, .times (-1)],
  [.plus (-2), .plus 0, .times (-1)],
  [.plus (-2), .plus 2, .times (-1)],
  [.plus (-1), .plus (-1), .times 1],
  [.plus (-2), .plus 0, .times 1],
  [.plus (-2), .plus 2, .times 1],
  [.plus (-3), .plus 1, .times 1],
  [.plus 0, .plus (-2), .times 1],
  [.plus (-1), .plus (-3), .times (-1)],
  [.plus (-2), .plus (-2), .times (-1)],
  [.plus (-2), .plus (-2), .times 1],
  [.plus (-3), .plus (-1), .times 1],
  [.plus 2, .plus 2, .times 1],
  [.plus 1, .plus 3, .times (-1)],
  [.plus 1, .plus 3, .times 1],
  [.plus 0, .plus 4, .times (-1)],
  [.plus (-1), .plus 3, .times 1],
  [.plus 2, .plus (-2), .times 1],
  [.plus 1, .plus (-3), .times (-1)],
  [.plus 1, .plus (-3), .times 1],
  [.plus 0, .plus (-4), .times (-1)],
  [.plus (-1), .plus (-3), .times 1]]

/-- `recalc_doublet` in `nrg-recalc-QSLR.hpp:149-`, 2 channel(s): `qslr-2ch-doubletp.dat`, `qslr-2ch-doubletm.dat`. -/
def op_QSLR_2ch_doublet : OpTable where
  builtin := ⟨"QSLR", 2, fields_QSLR, tab_QSLR_2ch⟩
  kind := .doublet
  labs := labs_QSLR
  targets := [
    ⟨[.plus (-1), .plus 1, .times 1], [1, 2, 1], some [
      ⟨1, 1, 0, 1, 0⟩, ⟨2, 2, 2, 3, 1⟩, ⟨3, 2, 4, 3, 2⟩, ⟨3, 3, 4, 5, 3⟩, ⟨4, 4, 6, 7, 1⟩,
      ⟨5, 4, 1, 7, 2⟩, ⟨5, 5, 1, 8, 3⟩, ⟨6, 6, 3, 9, 0⟩, ⟨7, 7, 7, 10, 0⟩, ⟨8, 8, 7, 10, 0⟩,
      ⟨9, 9, 11, 12, 4⟩, ⟨10, 9, 3, 12, 5⟩, ⟨10, 10, 3, 9, 6⟩, ⟨11, 10, 5, 9, 7⟩,
      ⟨11, 11, 5, 13, 0⟩, ⟨12, 12, 12, 14, 1⟩, ⟨13, 12, 9, 14, 2⟩, ⟨13, 13, 9, 15, 3⟩,
      ⟨14, 14, 16, 17, 1⟩, ⟨15, 14, 10, 17, 2⟩, ⟨15, 15, 10, 18, 3⟩, ⟨16, 16, 17, 19, 0⟩]⟩,
    ⟨[.plus (-1), .plus (-1), .times 1], [1, 2, 1], some [
      ⟨1, 1, 0, 6, 0⟩, ⟨2, 2, 2, 11, 3⟩, ⟨2, 3, 2, 3, 8⟩, ⟨3, 3, 4, 3, 1⟩, ⟨4, 4, 6, 20, 3⟩,
      ⟨4, 5, 6, 7, 8⟩, ⟨5, 5, 1, 7, 1⟩, ⟨6, 6, 3, 12, 0⟩, ⟨7, 7, 7, 16, 0⟩, ⟨8, 8, 7, 16, 0⟩,
      ⟨9, 9, 11, 21, 0⟩, ⟨9, 10, 11, 12, 9⟩, ⟨10, 10, 3, 12, 10⟩, ⟨10, 11, 3, 9, 11⟩,
      ⟨11, 11, 5, 9, 12⟩, ⟨12, 12, 12, 22, 3⟩, ⟨12, 13, 12, 14, 8⟩, ⟨13, 13, 9, 14, 1⟩,
      ⟨14, 14, 16, 23, 3⟩, ⟨14, 15, 16, 17, 8⟩, ⟨15, 15, 10, 17, 1⟩, ⟨16, 16, 17, 24, 0⟩]⟩]

/-- `recalc_triplet` in `nrg-recalc-QSLR.hpp:188-`, 2 channel(s): `qslr-2ch-triplets.dat`, `qslr-2ch-tripletp.dat`, `qslr-2ch-tripletm.dat`. -/
def op_QSLR_2ch_triplet : OpTable where
  builtin := ⟨"QSLR", 2, fields_QSLR, tab_QSLR_2ch⟩
  kind := .triplet
  labs := labs_QSLR
  targets := [
    ⟨[.plus 0, .plus 0, .times 1], [0, 3, 1], some [
      ⟨1, 1, 0, 0, 0⟩, ⟨2, 2, 2, 2, 4⟩, ⟨2, 3, 2, 4, 11⟩, ⟨3, 2, 4, 2, 5⟩, ⟨3, 3, 4, 4, 13⟩,
      ⟨4, 4, 6, 6, 4⟩, ⟨4, 5, 6, 1, 11⟩, ⟨5, 4, 1, 6, 5⟩, ⟨5, 5, 1, 1, 13⟩, ⟨6, 6, 3, 3, 0⟩,
      ⟨7, 7, 7, 7, 0⟩, ⟨8, 8, 7, 7, 0⟩, ⟨9, 9, 11, 11, 14⟩, ⟨9, 10, 11, 3, 15⟩,
      ⟨10, 9, 3, 11, 16⟩, ⟨10, 10, 3, 3, 17⟩, ⟨10, 11, 3, 5, 18⟩, ⟨11, 10, 5, 3, 19⟩,
      ⟨11, 11, 5, 5, 20⟩, ⟨12, 12, 12, 12, 4⟩, ⟨12, 13, 12, 9, 11⟩, ⟨13, 12, 9, 12, 5⟩,
      ⟨13, 13, 9, 9, 13⟩, ⟨14, 14, 16, 16, 4⟩, ⟨14, 15, 16, 10, 11⟩, ⟨15, 14, 10, 16, 5⟩,
      ⟨15, 15, 10, 10, 13⟩, ⟨16, 16, 17, 17, 0⟩]⟩,
    ⟨[.plus 0, .plus 2, .times 1], [0, 3, 1], some [
      ⟨1, 1, 0, 25, 0⟩, ⟨2, 2, 2, 4, 21⟩, ⟨3, 2, 4, 4, 22⟩, ⟨3, 3, 4, 26, 0⟩, ⟨4, 4, 6, 1, 21⟩,
      ⟨5, 4, 1, 1, 22⟩, ⟨5, 5, 1, 27, 0⟩, ⟨6, 6, 3, 5, 0⟩, ⟨7, 7, 7, 8, 0⟩, ⟨8, 8, 7, 8, 0⟩,
      ⟨9, 9, 11, 3, 23⟩, ⟨10, 9, 3, 3, 24⟩, ⟨10, 10, 3, 5, 20⟩, ⟨11, 9, 5, 3, 25⟩,
      ⟨11, 10, 5, 5, 26⟩, ⟨11, 11, 5, 28, 0⟩, ⟨12, 12, 12, 9, 21⟩, ⟨13, 12, 9, 9, 22⟩,
      ⟨13, 13, 9, 13, 0⟩, ⟨14, 14, 16, 10, 21⟩, ⟨15, 14, 10, 10, 22⟩, ⟨15, 15, 10, 29, 0⟩,
      ⟨16, 16, 17, 18, 0⟩]⟩,
    ⟨[.plus 0, .plus (-2), .times 1], [0, 3, 1], some [
      ⟨1, 1, 0, 30, 0⟩, ⟨2, 2, 2, 31, 0⟩, ⟨2, 3, 2, 2, 9⟩, ⟨3, 3, 4, 2, 27⟩, ⟨4, 4, 6, 32, 0⟩,
      ⟨4, 5, 6, 6, 9⟩, ⟨5, 5, 1, 6, 27⟩, ⟨6, 6, 3, 11, 0⟩, ⟨7, 7, 7, 20, 0⟩, ⟨8, 8, 7, 20, 0⟩,
      ⟨9, 9, 11, 33, 0⟩, ⟨9, 10, 11, 11, 28⟩, ⟨9, 11, 11, 3, 29⟩, ⟨10, 10, 3, 11, 14⟩,
      ⟨10, 11, 3, 3, 15⟩, ⟨11, 11, 5, 3, 23⟩, ⟨12, 12, 12, 21, 0⟩, ⟨12, 13, 12, 12, 9⟩,
      ⟨13, 13, 9, 12, 27⟩, ⟨14, 14, 16, 34, 0⟩, ⟨14, 15, 16, 16, 9⟩, ⟨15, 15, 10, 16, 27⟩,
      ⟨16, 16, 17, 23, 0⟩]⟩]

/-- The label expressions in the operator tables of `QSTZ`. -/
def labs_QSTZ : List LabelExpr := [
  [.plus 3, .plus 0, .plus 0],
  [.plus 2, .plus 1, .plus (-1)],
  [.plus 2, .plus (-1), .plus 1],
  [.plus 1, .plus 0, .plus 0],
  [.plus 2, .plus 1, .plus 1],
  [.plus 1, .plus 2, .plus 0],
  [.plus 2, .plus (-1), .plus 0],
  [.plus 1, .plus 0, .plus (-1)],
  [.plus 2, .plus 1, .plus 0],
  [.plus 1, .plus 2, .plus (-1)],
  [.plus 2, .plus (-1), .plus (-1)],
  [.plus 1, .plus 0, .plus (-2)],
  [.plus 1, .plus 2, .plus (-2)],
  [.plus 1, .plus 0, .plus 2],
  [.plus 0, .plus 1, .plus 1],
  [.plus 1, .plus 0, .plus 1],
  [.plus 0, .plus 1, .plus 0],
  [.plus 0, .plus 1, .plus (-1)],
  [.plus 0, .plus 1, .plus (-2)],
  [.plus 0, .plus 1, .plus (-3)],
  [.plus 1, .plus (-2), .plus 1],
  [.plus 0, .plus (-1), .plus 0],
  [.plus 1, .plus 2, .plus 1],
  [.plus 0, .plus 3, .plus 0],
  [.plus 1, .plus (-2), .plus 0],
  [.plus 0, .plus (-1), .plus (-1)],
  [.plus 0, .plus 3, .plus (-1)],
  [.plus 1, .plus (-2), .plus (-1)],
  [.plus 0, .plus (-1), .plus (-2)],
  [.plus 0, .plus 3, .plus (-2)],
  [.plus 0, .plus (-1), .plus 2],
  [.plus (-1), .plus 0, .plus 1],
  [.plus 0, .plus 1, .plus 2],
  [.plus (-1), .plus 2, .plus 1],
  [.plus 0, .plus (-1), .plus 1],
  [.plus (-1), .plus 0, .plus 0],
  [.plus (-1), .plus 2, .plus 0],
  [.plus (-1), .plus 0, .plus (-1)],
  [.plus (-1), .plus 2, .plus (-1)],
  [.plus (-1), .plus 0, .plus (-2)],
  [.plus (-1), .plus 2, .plus (-2)],
  [.plus (-1), .plus 0, .plus (-3)],
  [.plus (-1), .plus 2, .plus (-3)],
  [.plus 0, .plus (-3), .plus 0],
  [.plus (-1), .plus (-2), .plus (-1)],
  [.plus (-1), .plus 4, .plus (-1)],
  [.plus (-1), .plus 0, .plus 2],
  [.plus (-2), .plus 1, .plus 1],
  [.plus (-2), .plus 1, .plus 0],
  [.plus (-2), .plus 1, .plus (-1)],
  [.plus (-2), .plus 1, .plus (-2)],
  [.plus (-2), .plus 1, .plus (-3)],
  [.plus (-1), .plus (-2), .plus 1],
  [.plus (-2), .plus (-1), .plus 0],
  [.plus (-2), .plus 3, .plus 0],
  [.plus (-1), .plus (-2), .plus 0],
  [.plus (-2), .plus (-1), .plus (-1)],
  [.plus (-2), .plus 3, .plus (-1)],
  [.plus (-2), .plus (-1), .plus (-2)],
  [.plus (-2), .plus 3, .plus (-2)],
  [.plus (-2), .plus (-1), .plus 1],
  [.plus (-3), .plus 0, .plus 0],
  [.plus (-3), .plus 2, .plus 0],
  [.plus (-3), .plus 0, .plus (-1)],
  [.plus (-3), .plus 2, .plus (-1)],
  [.plus (-3), .plus 0, .plus (-2)],
  [.plus (-3), .plus 2, .plus (-2)],
  [.plus (-4), .plus 1, .plus (-1)],
  [.plus 1, .plus (-2), .plus (-2)],
  [.plus 0, .plus (-1), .plus (-3)],
  [.plus 0, .plus (-3), .plus (-1)],
  [.plus 0, .plus (-3), .plus (-2)],
  [.plus (-1), .plus (-2), .plus (-2)],
  [.plus (-1), .plus (-2), .plus (-3)],
  [.plus (-1), .plus (-4), .plus (-1)],
  [.plus (-2), .plus (-1), .plus (-3)],
  [.plus (-2), .plus (-3), .plus 0],
  [.plus (-2), .plus (-3), .plus (-1)],
  [.plus (-2), .plus (-3), .plus (-2)],
  [.plus (-3), .plus (-2), .plus 0],
  [.plus (-3), .plus (-2), .plus (-1)],
  [.plus (-3), .plus (-2), .plus (-2)],
  [.plus (-4), .plus (-1), .plus (-1)],
  [.plus 0, .plus 3, .plus 1],
  [.plus (-1), .plus 2, .plus 2],
  [.plus (-1), .plus 4, .plus 0],
  [.plus (-2), .plus 1, .plus 2],
  [.plus (-2), .plus 3, .plus 1],
  [.plus (-3), .plus 0, .plus 1],
  [.plus (-3), .plus 2, .plus 1],
  [.plus (-4), .plus 1, .plus 0],
  [.plus 0, .plus (-3), .plus 1],
  [.plus (-1), .plus (-2), .plus 2],
  [.plus (-1), .plus (-4), .plus 0],
  [.plus (-2), .plus (-1), .plus 2],
  [.plus (-2), .plus (-3), .plus 1],
  [.plus (-3), .plus (-2), .plus 1],
  [.plus (-4), .plus (-1), .plus 0],
  [.plus 1, .plus 2, .plus 2],
  [.plus 0, .plus 1, .plus 3],
  [.plus 0, .plus 3, .plus 2],
  [.plus (-1), .plus 0, .plus 3],
  [.plus (-1), .plus 2, .plus 3],
  [.plus (-1), .plus 4, .plus 1],
  [.plus (-2), .plus 1, .plus 3],
  [.plus (-2), .plus 3, .plus 2],
  [.plus (-3), .plus 0, .plus 2],
  [.plus (-3), .plus 2, .plus 2],
  [.plus (-4), .plus 1, .plus 1],
  [.plus 1, .plus (-2), .plus 2],
  [.plus 0, .plus (-1), .plus 3],
  [.plus 0, .plus (-3), .plus 2],
  [.plus (-1), .plus (-2), .plus 3],
  [.plus (-1), .plus (-4), .plus 1],
  [.plus (-2), .plus (-1), .plus 3],
  [.plus (-2), .plus (-3), .plus 2],
  [.plus (-3), .plus (-2), .plus 2],
  [.plus (-4), .plus (-1), .plus 1],
  [.plus 3, .plus 2, .plus 0],
  [.plus 2, .plus 3, .plus 1],
  [.plus 2, .plus 3, .plus 0],
  [.plus 2, .plus 3, .plus (-1)],
  [.plus 1, .plus 4, .plus 1],
  [.plus 1, .plus 4, .plus 0],
  [.plus 1, .plus 4, .plus (-1)],
  [.plus 0, .plus 5, .plus 0],
  [.plus 3, .plus (-2), .plus 0],
  [.plus 2, .plus (-3), .plus 1],
  [.plus 2, .plus (-3), .plus 0],
  [.plus 2, .plus (-3), .plus (-1)],
  [.plus 1, .plus (-4), .plus 1],
  [.plus 1, .plus (-4), .plus 0],
  [.plus 1, .plus (-4), .plus (-1)],
  [.plus 0, .plus (-5), .plus 0]]

/-- `recalc_doublet` in `nrg-recalc-QSTZ.hpp:32-`, 3 channel(s): `qstz-doubletp-1.dat`, `qstz-doubletm-1.dat`, `qstz-doubletp0.dat`, `qstz-doubletm0.dat`, `qstz-doubletp+1.dat`, `qstz-doubletm+1.dat`. -/
def op_QSTZ_3ch_doublet : OpTable where
  builtin := ⟨"QSTZ", 3, fields_QSTZ, tab_QSTZ_3ch⟩
  kind := .doublet
  labs := labs_QSTZ
  targets := [
    ⟨[.plus (-1), .plus 1, .plus (-1)], [1, 2, 1], some [
      ⟨1, 1, 0, 1, 0⟩, ⟨2, 2, 2, 3, 1⟩, ⟨3, 2, 4, 3, 2⟩, ⟨3, 3, 4, 5, 3⟩, ⟨4, 4, 6, 7, 1⟩,
      ⟨5, 4, 8, 7, 2⟩, ⟨5, 5, 8, 9, 3⟩, ⟨6, 6, 10, 11, 1⟩, ⟨7, 6, 1, 11, 2⟩, ⟨7, 7, 1, 12, 3⟩,
      ⟨8, 8, 13, 14, 0⟩, ⟨9, 9, 15, 16, 0⟩, ⟨10, 10, 3, 17, 0⟩, ⟨11, 11, 3, 17, 0⟩,
      ⟨12, 12, 7, 18, 0⟩, ⟨13, 13, 11, 19, 0⟩, ⟨14, 14, 20, 21, 4⟩, ⟨15, 14, 15, 21, 5⟩,
      ⟨15, 15, 15, 16, 6⟩, ⟨16, 15, 22, 16, 7⟩, ⟨16, 16, 22, 23, 0⟩, ⟨17, 17, 24, 25, 4⟩,
      ⟨18, 17, 3, 25, 5⟩, ⟨18, 18, 3, 17, 6⟩, ⟨19, 18, 5, 17, 7⟩, ⟨19, 19, 5, 26, 0⟩,
      ⟨20, 20, 27, 28, 4⟩, ⟨21, 20, 7, 28, 5⟩, ⟨21, 21, 7, 18, 6⟩, ⟨22, 21, 9, 18, 7⟩,
      ⟨22, 22, 9, 29, 0⟩, ⟨23, 23, 30, 31, 1⟩, ⟨24, 23, 32, 31, 2⟩, ⟨24, 24, 32, 33, 3⟩,
      ⟨25, 25, 34, 35, 1⟩, ⟨26, 25, 14, 35, 2⟩, ⟨26, 26, 14, 36, 3⟩, ⟨27, 27, 34, 35, 1⟩,
      ⟨28, 27, 14, 35, 2⟩, ⟨28, 28, 14, 36, 3⟩, ⟨29, 29, 21, 37, 1⟩, ⟨30, 29, 16, 37, 2⟩,
      ⟨30, 30, 16, 38, 3⟩, ⟨31, 31, 21, 37, 1⟩, ⟨32, 31, 16, 37, 2⟩, ⟨32, 32, 16, 38, 3⟩,
      ⟨33, 33, 25, 39, 1⟩, ⟨34, 33, 17, 39, 2⟩, ⟨34, 34, 17, 40, 3⟩, ⟨35, 35, 25, 39, 1⟩,
      ⟨36, 35, 17, 39, 2⟩, ⟨36, 36, 17, 40, 3⟩, ⟨37, 37, 28, 41, 1⟩, ⟨38, 37, 18, 41, 2⟩,
      ⟨38, 38, 18, 42, 3⟩, ⟨39, 39, 43, 44, 8⟩, ⟨40, 39, 21, 44, 9⟩, ⟨40, 40, 21, 37, 10⟩,
      ⟨41, 40, 16, 37, 11⟩, ⟨41, 41, 16, 38, 12⟩, ⟨42, 41, 23, 38, 13⟩, ⟨42, 42, 23, 45, 3⟩,
      ⟨43, 43, 46, 47, 0⟩, ⟨44, 44, 31, 48, 0⟩, ⟨45, 45, 35, 49, 0⟩, ⟨46, 46, 35, 49, 0⟩,
      ⟨47, 47, 37, 50, 0⟩, ⟨48, 48, 39, 51, 0⟩, ⟨49, 49, 52, 53, 4⟩, ⟨50, 49, 31, 53, 5⟩,
      ⟨50, 50, 31, 48, 6⟩, ⟨51, 50, 33, 48, 7⟩, ⟨51, 51, 33, 54, 0⟩, ⟨52, 52, 55, 56, 4⟩,
      ⟨53, 52, 35, 56, 5⟩, ⟨53, 53, 35, 49, 6⟩, ⟨54, 53, 36, 49, 7⟩, ⟨54, 54, 36, 57, 0⟩,
      ⟨55, 55, 44, 58, 4⟩, ⟨56, 55, 37, 58, 5⟩, ⟨56, 56, 37, 50, 6⟩, ⟨57, 56, 38, 50, 7⟩,
      ⟨57, 57, 38, 59, 0⟩, ⟨58, 58, 60, 61, 1⟩, ⟨59, 58, 47, 61, 2⟩, ⟨59, 59, 47, 62, 3⟩,
      ⟨60, 60, 53, 63, 1⟩, ⟨61, 60, 48, 63, 2⟩, ⟨61, 61, 48, 64, 3⟩, ⟨62, 62, 56, 65, 1⟩,
      ⟨63, 62, 49, 65, 2⟩, ⟨63, 63, 49, 66, 3⟩, ⟨64, 64, 61, 67, 0⟩]⟩,
    ⟨[.plus (-1), .plus (-1), .plus (-1)], [1, 2, 1], some [
      ⟨1, 1, 0, 10, 0⟩, ⟨2, 2, 2, 24, 3⟩, ⟨2, 3, 2, 3, 14⟩, ⟨3, 3, 4, 3, 1⟩, ⟨4, 4, 6, 27, 3⟩,
      ⟨4, 5, 6, 7, 14⟩, ⟨5, 5, 8, 7, 1⟩, ⟨6, 6, 10, 68, 3⟩, ⟨6, 7, 10, 11, 14⟩, ⟨7, 7, 1, 11, 1⟩,
      ⟨8, 8, 13, 34, 0⟩, ⟨9, 9, 15, 21, 0⟩, ⟨10, 10, 3, 25, 0⟩, ⟨11, 11, 3, 25, 0⟩,
      ⟨12, 12, 7, 28, 0⟩, ⟨13, 13, 11, 69, 0⟩, ⟨14, 14, 20, 43, 0⟩, ⟨14, 15, 20, 21, 15⟩,
      ⟨15, 15, 15, 21, 16⟩, ⟨15, 16, 15, 16, 17⟩, ⟨16, 16, 22, 16, 18⟩, ⟨17, 17, 24, 70, 0⟩,
      ⟨17, 18, 24, 25, 15⟩, ⟨18, 18, 3, 25, 16⟩, ⟨18, 19, 3, 17, 17⟩, ⟨19, 19, 5, 17, 18⟩,
      ⟨20, 20, 27, 71, 0⟩, ⟨20, 21, 27, 28, 15⟩, ⟨21, 21, 7, 28, 16⟩, ⟨21, 22, 7, 18, 17⟩,
      ⟨22, 22, 9, 18, 18⟩, ⟨23, 23, 30, 52, 3⟩, ⟨23, 24, 30, 31, 14⟩, ⟨24, 24, 32, 31, 1⟩,
      ⟨25, 25, 34, 55, 3⟩, ⟨25, 26, 34, 35, 14⟩, ⟨26, 26, 14, 35, 1⟩, ⟨27, 27, 34, 55, 3⟩,
      ⟨27, 28, 34, 35, 14⟩, ⟨28, 28, 14, 35, 1⟩, ⟨29, 29, 21, 44, 3⟩, ⟨29, 30, 21, 37, 14⟩,
      ⟨30, 30, 16, 37, 1⟩, ⟨31, 31, 21, 44, 3⟩, ⟨31, 32, 21, 37, 14⟩, ⟨32, 32, 16, 37, 1⟩,
      ⟨33, 33, 25, 72, 3⟩, ⟨33, 34, 25, 39, 14⟩, ⟨34, 34, 17, 39, 1⟩, ⟨35, 35, 25, 72, 3⟩,
      ⟨35, 36, 25, 39, 14⟩, ⟨36, 36, 17, 39, 1⟩, ⟨37, 37, 28, 73, 3⟩, ⟨37, 38, 28, 41, 14⟩,
      ⟨38, 38, 18, 41, 1⟩, ⟨39, 39, 43, 74, 3⟩, ⟨39, 40, 43, 44, 19⟩, ⟨40, 40, 21, 44, 20⟩,
      ⟨40, 41, 21, 37, 21⟩, ⟨41, 41, 16, 37, 22⟩, ⟨41, 42, 16, 38, 23⟩, ⟨42, 42, 23, 38, 24⟩,
      ⟨43, 43, 46, 60, 0⟩, ⟨44, 44, 31, 53, 0⟩, ⟨45, 45, 35, 56, 0⟩, ⟨46, 46, 35, 56, 0⟩,
      ⟨47, 47, 37, 58, 0⟩, ⟨48, 48, 39, 75, 0⟩, ⟨49, 49, 52, 76, 0⟩, ⟨49, 50, 52, 53, 15⟩,
      ⟨50, 50, 31, 53, 16⟩, ⟨50, 51, 31, 48, 17⟩, ⟨51, 51, 33, 48, 18⟩, ⟨52, 52, 55, 77, 0⟩,
      ⟨52, 53, 55, 56, 15⟩, ⟨53, 53, 35, 56, 16⟩, ⟨53, 54, 35, 49, 17⟩, ⟨54, 54, 36, 49, 18⟩,
      ⟨55, 55, 44, 78, 0⟩, ⟨55, 56, 44, 58, 15⟩, ⟨56, 56, 37, 58, 16⟩, ⟨56, 57, 37, 50, 17⟩,
      ⟨57, 57, 38, 50, 18⟩, ⟨58, 58, 60, 79, 3⟩, ⟨58, 59, 60, 61, 14⟩, ⟨59, 59, 47, 61, 1⟩,
      ⟨60, 60, 53, 80, 3⟩, ⟨60, 61, 53, 63, 14⟩, ⟨61, 61, 48, 63, 1⟩, ⟨62, 62, 56, 81, 3⟩,
      ⟨62, 63, 56, 65, 14⟩, ⟨63, 63, 49, 65, 1⟩, ⟨64, 64, 61, 82, 0⟩]⟩,
    ⟨[.plus (-1), .plus 1, .plus 0], [1, 2, 0], some [
      ⟨1, 1, 0, 8, 0⟩, ⟨2, 2, 2, 15, 1⟩, ⟨3, 2, 4, 15, 2⟩, ⟨3, 3, 4, 22, 3⟩, ⟨4, 4, 6, 3, 1⟩,
      ⟨5, 4, 8, 3, 2⟩, ⟨5, 5, 8, 5, 3⟩, ⟨6, 6, 10, 7, 1⟩, ⟨7, 6, 1, 7, 2⟩, ⟨7, 7, 1, 9, 3⟩,
      ⟨8, 8, 13, 32, 0⟩, ⟨9, 9, 15, 14, 0⟩, ⟨10, 10, 3, 16, 0⟩, ⟨11, 11, 3, 16, 0⟩,
      ⟨12, 12, 7, 17, 0⟩, ⟨13, 13, 11, 18, 0⟩, ⟨14, 14, 20, 34, 4⟩, ⟨15, 14, 15, 34, 5⟩,
      ⟨15, 15, 15, 14, 6⟩, ⟨16, 15, 22, 14, 7⟩, ⟨16, 16, 22, 83, 0⟩, ⟨17, 17, 24, 21, 4⟩,
      ⟨18, 17, 3, 21, 5⟩, ⟨18, 18, 3, 16, 6⟩, ⟨19, 18, 5, 16, 7⟩, ⟨19, 19, 5, 23, 0⟩,
      ⟨20, 20, 27, 25, 4⟩, ⟨21, 20, 7, 25, 5⟩, ⟨21, 21, 7, 17, 6⟩, ⟨22, 21, 9, 17, 7⟩,
      ⟨22, 22, 9, 26, 0⟩, ⟨23, 23, 30, 46, 1⟩, ⟨24, 23, 32, 46, 2⟩, ⟨24, 24, 32, 84, 3⟩,
      ⟨25, 25, 34, 31, 1⟩, ⟨26, 25, 14, 31, 2⟩, ⟨26, 26, 14, 33, 3⟩, ⟨27, 27, 34, 31, 1⟩,
      ⟨28, 27, 14, 31, 2⟩, ⟨28, 28, 14, 33, 3⟩, ⟨29, 29, 21, 35, 1⟩, ⟨30, 29, 16, 35, 2⟩,
      ⟨30, 30, 16, 36, 3⟩, ⟨31, 31, 21, 35, 1⟩, ⟨32, 31, 16, 35, 2⟩, ⟨32, 32, 16, 36, 3⟩,
      ⟨33, 33, 25, 37, 1⟩, ⟨34, 33, 17, 37, 2⟩, ⟨34, 34, 17, 38, 3⟩, ⟨35, 35, 25, 37, 1⟩,
      ⟨36, 35, 17, 37, 2⟩, ⟨36, 36, 17, 38, 3⟩, ⟨37, 37, 28, 39, 1⟩, ⟨38, 37, 18, 39, 2⟩,
      ⟨38, 38, 18, 40, 3⟩, ⟨39, 39, 43, 55, 8⟩, ⟨40, 39, 21, 55, 9⟩, ⟨40, 40, 21, 35, 10⟩,
      ⟨41, 40, 16, 35, 11⟩, ⟨41, 41, 16, 36, 12⟩, ⟨42, 41, 23, 36, 13⟩, ⟨42, 42, 23, 85, 3⟩,
      ⟨43, 43, 46, 86, 0⟩, ⟨44, 44, 31, 47, 0⟩, ⟨45, 45, 35, 48, 0⟩, ⟨46, 46, 35, 48, 0⟩,
      ⟨47, 47, 37, 49, 0⟩, ⟨48, 48, 39, 50, 0⟩, ⟨49, 49, 52, 60, 4⟩, ⟨50, 49, 31, 60, 5⟩,
      ⟨50, 50, 31, 47, 6⟩, ⟨51, 50, 33, 47, 7⟩, ⟨51, 51, 33, 87, 0⟩, ⟨52, 52, 55, 53, 4⟩,
      ⟨53, 52, 35, 53, 5⟩, ⟨53, 53, 35, 48, 6⟩, ⟨54, 53, 36, 48, 7⟩, ⟨54, 54, 36, 54, 0⟩,
      ⟨55, 55, 44, 56, 4⟩, ⟨56, 55, 37, 56, 5⟩, ⟨56, 56, 37, 49, 6⟩, ⟨57, 56, 38, 49, 7⟩,
      ⟨57, 57, 38, 57, 0⟩, ⟨58, 58, 60, 88, 1⟩, ⟨59, 58, 47, 88, 2⟩, ⟨59, 59, 47, 89, 3⟩,
      ⟨60, 60, 53, 61, 1⟩, ⟨61, 60, 48, 61, 2⟩, ⟨61, 61, 48, 62, 3⟩, ⟨62, 62, 56, 63, 1⟩,
      ⟨63, 62, 49, 63, 2⟩, ⟨63, 63, 49, 64, 3⟩, ⟨64, 64, 61, 90, 0⟩]⟩,
    ⟨[.plus (-1), .plus (-1), .plus 0], [1, 2, 0], some [
      ⟨1, 1, 0, 6, 0⟩, ⟨2, 2, 2, 20, 3⟩, ⟨2, 3, 2, 15, 14⟩, ⟨3, 3, 4, 15, 1⟩, ⟨4, 4, 6, 24, 3⟩,
      ⟨4, 5, 6, 3, 14⟩, ⟨5, 5, 8, 3, 1⟩, ⟨6, 6, 10, 27, 3⟩, ⟨6, 7, 10, 7, 14⟩, ⟨7, 7, 1, 7, 1⟩,
      ⟨8, 8, 13, 30, 0⟩, ⟨9, 9, 15, 34, 0⟩, ⟨10, 10, 3, 21, 0⟩, ⟨11, 11, 3, 21, 0⟩,
      ⟨12, 12, 7, 25, 0⟩, ⟨13, 13, 11, 28, 0⟩, ⟨14, 14, 20, 91, 0⟩, ⟨14, 15, 20, 34, 15⟩,
      ⟨15, 15, 15, 34, 16⟩, ⟨15, 16, 15, 14, 17⟩, ⟨16, 16, 22, 14, 18⟩, ⟨17, 17, 24, 43, 0⟩,
      ⟨17, 18, 24, 21, 15⟩, ⟨18, 18, 3, 21, 16⟩, ⟨18, 19, 3, 16, 17⟩, ⟨19, 19, 5, 16, 18⟩,
      ⟨20, 20, 27, 70, 0⟩, ⟨20, 21, 27, 25, 15⟩, ⟨21, 21, 7, 25, 16⟩, ⟨21, 22, 7, 17, 17⟩,
      ⟨22, 22, 9, 17, 18⟩, ⟨23, 23, 30, 92, 3⟩, ⟨23, 24, 30, 46, 14⟩, ⟨24, 24, 32, 46, 1⟩,
      ⟨25, 25, 34, 52, 3⟩, ⟨25, 26, 34, 31, 14⟩, ⟨26, 26, 14, 31, 1⟩, ⟨27, 27, 34, 52, 3⟩,
      ⟨27, 28, 34, 31, 14⟩, ⟨28, 28, 14, 31, 1⟩, ⟨29, 29, 21, 55, 3⟩, ⟨29, 30, 21, 35, 14⟩,
      ⟨30, 30, 16, 35, 1⟩, ⟨31, 31, 21, 55, 3⟩, ⟨31, 32, 21, 35, 14⟩, ⟨32, 32, 16, 35, 1⟩,
      ⟨33, 33, 25, 44, 3⟩, ⟨33, 34, 25, 37, 14⟩, ⟨34, 34, 17, 37, 1⟩, ⟨35, 35, 25, 44, 3⟩,
      ⟨35, 36, 25, 37, 14⟩, ⟨36, 36, 17, 37, 1⟩, ⟨37, 37, 28, 72, 3⟩, ⟨37, 38, 28, 39, 14⟩,
      ⟨38, 38, 18, 39, 1⟩, ⟨39, 39, 43, 93, 3⟩, ⟨39, 40, 43, 55, 19⟩, ⟨40, 40, 21, 55, 20⟩,
      ⟨40, 41, 21, 35, 21⟩, ⟨41, 41, 16, 35, 22⟩, ⟨41, 42, 16, 36, 23⟩, ⟨42, 42, 23, 36, 24⟩,
      ⟨43, 43, 46, 94, 0⟩, ⟨44, 44, 31, 60, 0⟩, ⟨45, 45, 35, 53, 0⟩, ⟨46, 46, 35, 53, 0⟩,
      ⟨47, 47, 37, 56, 0⟩, ⟨48, 48, 39, 58, 0⟩, ⟨49, 49, 52, 95, 0⟩, ⟨49, 50, 52, 60, 15⟩,
      ⟨50, 50, 31, 60, 16⟩, ⟨50, 51, 31, 47, 17⟩, ⟨51, 51, 33, 47, 18⟩, ⟨52, 52, 55, 76, 0⟩,
      ⟨52, 53, 55, 53, 15⟩, ⟨53, 53, 35, 53, 16⟩, ⟨53, 54, 35, 48, 17⟩, ⟨54, 54, 36, 48, 18⟩,
      ⟨55, 55, 44, 77, 0⟩, ⟨55, 56, 44, 56, 15⟩, ⟨56, 56, 37, 56, 16⟩, ⟨56, 57, 37, 49, 17⟩,
      ⟨57, 57, 38, 49, 18⟩, ⟨58, 58, 60, 96, 3⟩, ⟨58, 59, 60, 88, 14⟩, ⟨59, 59, 47, 88, 1⟩,
      ⟨60, 60, 53, 79, 3⟩, ⟨60, 61, 53, 61, 14⟩, ⟨61, 61, 48, 61, 1⟩, ⟨62, 62, 56, 80, 3⟩,
      ⟨62, 63, 56, 63, 14⟩, ⟨63, 63, 49, 63, 1⟩, ⟨64, 64, 61, 97, 0⟩]⟩,
    ⟨[.plus (-1), .plus 1, .plus 1], [1, 2, -1], some [
      ⟨1, 1, 0, 4, 0⟩, ⟨2, 2, 2, 13, 1⟩, ⟨3, 2, 4, 13, 2⟩, ⟨3, 3, 4, 98, 3⟩, ⟨4, 4, 6, 15, 1⟩,
      ⟨5, 4, 8, 15, 2⟩, ⟨5, 5, 8, 22, 3⟩, ⟨6, 6, 10, 3, 1⟩, ⟨7, 6, 1, 3, 2⟩, ⟨7, 7, 1, 5, 3⟩,
      ⟨8, 8, 13, 99, 0⟩, ⟨9, 9, 15, 32, 0⟩, ⟨10, 10, 3, 14, 0⟩, ⟨11, 11, 3, 14, 0⟩,
      ⟨12, 12, 7, 16, 0⟩, ⟨13, 13, 11, 17, 0⟩, ⟨14, 14, 20, 30, 4⟩, ⟨15, 14, 15, 30, 5⟩,
      ⟨15, 15, 15, 32, 6⟩, ⟨16, 15, 22, 32, 7⟩, ⟨16, 16, 22, 100, 0⟩, ⟨17, 17, 24, 34, 4⟩,
      ⟨18, 17, 3, 34, 5⟩, ⟨18, 18, 3, 14, 6⟩, ⟨19, 18, 5, 14, 7⟩, ⟨19, 19, 5, 83, 0⟩,
      ⟨20, 20, 27, 21, 4⟩, ⟨21, 20, 7, 21, 5⟩, ⟨21, 21, 7, 16, 6⟩, ⟨22, 21, 9, 16, 7⟩,
      ⟨22, 22, 9, 23, 0⟩, ⟨23, 23, 30, 101, 1⟩, ⟨24, 23, 32, 101, 2⟩, ⟨24, 24, 32, 102, 3⟩,
      ⟨25, 25, 34, 46, 1⟩, ⟨26, 25, 14, 46, 2⟩, ⟨26, 26, 14, 84, 3⟩, ⟨27, 27, 34, 46, 1⟩,
      ⟨28, 27, 14, 46, 2⟩, ⟨28, 28, 14, 84, 3⟩, ⟨29, 29, 21, 31, 1⟩, ⟨30, 29, 16, 31, 2⟩,
      ⟨30, 30, 16, 33, 3⟩, ⟨31, 31, 21, 31, 1⟩, ⟨32, 31, 16, 31, 2⟩, ⟨32, 32, 16, 33, 3⟩,
      ⟨33, 33, 25, 35, 1⟩, ⟨34, 33, 17, 35, 2⟩, ⟨34, 34, 17, 36, 3⟩, ⟨35, 35, 25, 35, 1⟩,
      ⟨36, 35, 17, 35, 2⟩, ⟨36, 36, 17, 36, 3⟩, ⟨37, 37, 28, 37, 1⟩, ⟨38, 37, 18, 37, 2⟩,
      ⟨38, 38, 18, 38, 3⟩, ⟨39, 39, 43, 52, 8⟩, ⟨40, 39, 21, 52, 9⟩, ⟨40, 40, 21, 31, 10⟩,
      ⟨41, 40, 16, 31, 11⟩, ⟨41, 41, 16, 33, 12⟩, ⟨42, 41, 23, 33, 13⟩, ⟨42, 42, 23, 103, 3⟩,
      ⟨43, 43, 46, 104, 0⟩, ⟨44, 44, 31, 86, 0⟩, ⟨45, 45, 35, 47, 0⟩, ⟨46, 46, 35, 47, 0⟩,
      ⟨47, 47, 37, 48, 0⟩, ⟨48, 48, 39, 49, 0⟩, ⟨49, 49, 52, 94, 4⟩, ⟨50, 49, 31, 94, 5⟩,
      ⟨50, 50, 31, 86, 6⟩, ⟨51, 50, 33, 86, 7⟩, ⟨51, 51, 33, 105, 0⟩, ⟨52, 52, 55, 60, 4⟩,
      ⟨53, 52, 35, 60, 5⟩, ⟨53, 53, 35, 47, 6⟩, ⟨54, 53, 36, 47, 7⟩, ⟨54, 54, 36, 87, 0⟩,
      ⟨55, 55, 44, 53, 4⟩, ⟨56, 55, 37, 53, 5⟩, ⟨56, 56, 37, 48, 6⟩, ⟨57, 56, 38, 48, 7⟩,
      ⟨57, 57, 38, 54, 0⟩, ⟨58, 58, 60, 106, 1⟩, ⟨59, 58, 47, 106, 2⟩, ⟨59, 59, 47, 107, 3⟩,
      ⟨60, 60, 53, 88, 1⟩, ⟨61, 60, 48, 88, 2⟩, ⟨61, 61, 48, 89, 3⟩, ⟨62, 62, 56, 61, 1⟩,
      ⟨63, 62, 49, 61, 2⟩, ⟨63, 63, 49, 62, 3⟩, ⟨64, 64, 61, 108, 0⟩]⟩,
    ⟨[.plus (-1), .plus (-1), .plus 1], [1, 2, -1], some [
      ⟨1, 1, 0, 2, 0⟩, ⟨2, 2, 2, 109, 3⟩, ⟨2, 3, 2, 13, 14⟩, ⟨3, 3, 4, 13, 1⟩, ⟨4, 4, 6, 20, 3⟩,
      ⟨4, 5, 6, 15, 14⟩, ⟨5, 5, 8, 15, 1⟩, ⟨6, 6, 10, 24, 3⟩, ⟨6, 7, 10, 3, 14⟩, ⟨7, 7, 1, 3, 1⟩,
      ⟨8, 8, 13, 110, 0⟩, ⟨9, 9, 15, 30, 0⟩, ⟨10, 10, 3, 34, 0⟩, ⟨11, 11, 3, 34, 0⟩,
      ⟨12, 12, 7, 21, 0⟩, ⟨13, 13, 11, 25, 0⟩, ⟨14, 14, 20, 111, 0⟩, ⟨14, 15, 20, 30, 15⟩,
      ⟨15, 15, 15, 30, 16⟩, ⟨15, 16, 15, 32, 17⟩, ⟨16, 16, 22, 32, 18⟩, ⟨17, 17, 24, 91, 0⟩,
      ⟨17, 18, 24, 34, 15⟩, ⟨18, 18, 3, 34, 16⟩, ⟨18, 19, 3, 14, 17⟩, ⟨19, 19, 5, 14, 18⟩,
      ⟨20, 20, 27, 43, 0⟩, ⟨20, 21, 27, 21, 15⟩, ⟨21, 21, 7, 21, 16⟩, ⟨21, 22, 7, 16, 17⟩,
      ⟨22, 22, 9, 16, 18⟩, ⟨23, 23, 30, 112, 3⟩, ⟨23, 24, 30, 101, 14⟩, ⟨24, 24, 32, 101, 1⟩,
      ⟨25, 25, 34, 92, 3⟩, ⟨25, 26, 34, 46, 14⟩, ⟨26, 26, 14, 46, 1⟩, ⟨27, 27, 34, 92, 3⟩,
      ⟨27, 28, 34, 46, 14⟩, ⟨28, 28, 14, 46, 1⟩, ⟨29, 29, 21, 52, 3⟩, ⟨29, 30, 21, 31, 14⟩,
      ⟨30, 30, 16, 31, 1⟩, ⟨31, 31, 21, 52, 3⟩, ⟨31, 32, 21, 31, 14⟩, ⟨32, 32, 16, 31, 1⟩,
      ⟨33, 33, 25, 55, 3⟩, ⟨33, 34, 25, 35, 14⟩, ⟨34, 34, 17, 35, 1⟩, ⟨35, 35, 25, 55, 3⟩,
      ⟨35, 36, 25, 35, 14⟩, ⟨36, 36, 17, 35, 1⟩, ⟨37, 37, 28, 44, 3⟩, ⟨37, 38, 28, 37, 14⟩,
      ⟨38, 38, 18, 37, 1⟩, ⟨39, 39, 43, 113, 3⟩, ⟨39, 40, 43, 52, 19⟩, ⟨40, 40, 21, 52, 20⟩,
      ⟨40, 41, 21, 31, 21⟩, ⟨41, 41, 16, 31, 22⟩, ⟨41, 42, 16, 33, 23⟩, ⟨42, 42, 23, 33, 24⟩,
      ⟨43, 43, 46, 114, 0⟩, ⟨44, 44, 31, 94, 0⟩, ⟨45, 45, 35, 60, 0⟩, ⟨46, 46, 35, 60, 0⟩,
      ⟨47, 47, 37, 53, 0⟩, ⟨48, 48, 39, 56, 0⟩, ⟨49, 49, 52, 115, 0⟩, ⟨49, 50, 52, 94, 15⟩,
      ⟨50, 50, 31, 94, 16⟩, ⟨50, 51, 31, 86, 17⟩, ⟨51, 51, 33, 86, 18⟩, ⟨52, 52, 55, 95, 0⟩,
      ⟨52, 53, 55, 60, 15⟩, ⟨53, 53, 35, 60, 16⟩, ⟨53, 54, 35, 47, 17⟩, ⟨54, 54, 36, 47, 18⟩,
      ⟨55, 55, 44, 76, 0⟩, ⟨55, 56, 44, 53, 15⟩, ⟨56, 56, 37, 53, 16⟩, ⟨56, 57, 37, 48, 17⟩,
      ⟨57, 57, 38, 48, 18⟩, ⟨58, 58, 60, 116, 3⟩, ⟨58, 59, 60, 106, 14⟩, ⟨59, 59, 47, 106, 1⟩,
      ⟨60, 60, 53, 96, 3⟩, ⟨60, 61, 53, 88, 14⟩, ⟨61, 61, 48, 88, 1⟩, ⟨62, 62, 56, 79, 3⟩,
      ⟨62, 63, 56, 61, 14⟩, ⟨63, 63, 49, 61, 1⟩, ⟨64, 64, 61, 117, 0⟩]⟩]

/-- `recalc_triplet` in `nrg-recalc-QSTZ.hpp:220-`, 3 channel(s): `qstz-triplets.dat`, `qstz-tripletp.dat`, `qstz-tripletm.dat`. -/
def op_QSTZ_3ch_triplet : OpTable where
  builtin := ⟨"QSTZ", 3, fields_QSTZ, tab_QSTZ_3ch⟩
  kind := .triplet
  labs := labs_QSTZ
  targets := [
    ⟨[.plus 0, .plus 0, .plus 0], [0, 3, 0], some [
      ⟨1, 1, 0, 0, 0⟩, ⟨2, 2, 2, 2, 4⟩, ⟨2, 3, 2, 4, 25⟩, ⟨3, 2, 4, 2, 5⟩, ⟨3, 3, 4, 4, 26⟩,
      ⟨4, 4, 6, 6, 4⟩, ⟨4, 5, 6, 8, 25⟩, ⟨5, 4, 8, 6, 5⟩, ⟨5, 5, 8, 8, 26⟩, ⟨6, 6, 10, 10, 4⟩,
      ⟨6, 7, 10, 1, 25⟩, ⟨7, 6, 1, 10, 5⟩, ⟨7, 7, 1, 1, 26⟩, ⟨8, 8, 13, 13, 0⟩,
      ⟨9, 9, 15, 15, 0⟩, ⟨10, 10, 3, 3, 0⟩, ⟨11, 11, 3, 3, 0⟩, ⟨12, 12, 7, 7, 0⟩,
      ⟨13, 13, 11, 11, 0⟩, ⟨14, 14, 20, 20, 27⟩, ⟨14, 15, 20, 15, 28⟩, ⟨15, 14, 15, 20, 29⟩,
      ⟨15, 15, 15, 15, 30⟩, ⟨15, 16, 15, 22, 31⟩, ⟨16, 15, 22, 15, 32⟩, ⟨16, 16, 22, 22, 33⟩,
      ⟨17, 17, 24, 24, 27⟩, ⟨17, 18, 24, 3, 28⟩, ⟨18, 17, 3, 24, 29⟩, ⟨18, 18, 3, 3, 30⟩,
      ⟨18, 19, 3, 5, 31⟩, ⟨19, 18, 5, 3, 32⟩, ⟨19, 19, 5, 5, 33⟩, ⟨20, 20, 27, 27, 27⟩,
      ⟨20, 21, 27, 7, 28⟩, ⟨21, 20, 7, 27, 29⟩, ⟨21, 21, 7, 7, 30⟩, ⟨21, 22, 7, 9, 31⟩,
      ⟨22, 21, 9, 7, 32⟩, ⟨22, 22, 9, 9, 33⟩, ⟨23, 23, 30, 30, 4⟩, ⟨23, 24, 30, 32, 25⟩,
      ⟨24, 23, 32, 30, 5⟩, ⟨24, 24, 32, 32, 26⟩, ⟨25, 25, 34, 34, 4⟩, ⟨25, 26, 34, 14, 25⟩,
      ⟨26, 25, 14, 34, 5⟩, ⟨26, 26, 14, 14, 26⟩, ⟨27, 27, 34, 34, 4⟩, ⟨27, 28, 34, 14, 25⟩,
      ⟨28, 27, 14, 34, 5⟩, ⟨28, 28, 14, 14, 26⟩, ⟨29, 29, 21, 21, 4⟩, ⟨29, 30, 21, 16, 25⟩,
      ⟨30, 29, 16, 21, 5⟩, ⟨30, 30, 16, 16, 26⟩, ⟨31, 31, 21, 21, 4⟩, ⟨31, 32, 21, 16, 25⟩,
      ⟨32, 31, 16, 21, 5⟩, ⟨32, 32, 16, 16, 26⟩, ⟨33, 33, 25, 25, 4⟩, ⟨33, 34, 25, 17, 25⟩,
      ⟨34, 33, 17, 25, 5⟩, ⟨34, 34, 17, 17, 26⟩, ⟨35, 35, 25, 25, 4⟩, ⟨35, 36, 25, 17, 25⟩,
      ⟨36, 35, 17, 25, 5⟩, ⟨36, 36, 17, 17, 26⟩, ⟨37, 37, 28, 28, 4⟩, ⟨37, 38, 28, 18, 25⟩,
      ⟨38, 37, 18, 28, 5⟩, ⟨38, 38, 18, 18, 26⟩, ⟨39, 39, 43, 43, 34⟩, ⟨39, 40, 43, 21, 35⟩,
      ⟨40, 39, 21, 43, 36⟩, ⟨40, 40, 21, 21, 37⟩, ⟨40, 41, 21, 16, 38⟩, ⟨41, 40, 16, 21, 39⟩,
      ⟨41, 41, 16, 16, 40⟩, ⟨41, 42, 16, 23, 41⟩, ⟨42, 41, 23, 16, 42⟩, ⟨42, 42, 23, 23, 43⟩,
      ⟨43, 43, 46, 46, 0⟩, ⟨44, 44, 31, 31, 0⟩, ⟨45, 45, 35, 35, 0⟩, ⟨46, 46, 35, 35, 0⟩,
      ⟨47, 47, 37, 37, 0⟩, ⟨48, 48, 39, 39, 0⟩, ⟨49, 49, 52, 52, 27⟩, ⟨49, 50, 52, 31, 28⟩,
      ⟨50, 49, 31, 52, 29⟩, ⟨50, 50, 31, 31, 30⟩, ⟨50, 51, 31, 33, 31⟩, ⟨51, 50, 33, 31, 32⟩,
      ⟨51, 51, 33, 33, 33⟩, ⟨52, 52, 55, 55, 27⟩, ⟨52, 53, 55, 35, 28⟩, ⟨53, 52, 35, 55, 29⟩,
      ⟨53, 53, 35, 35, 30⟩, ⟨53, 54, 35, 36, 31⟩, ⟨54, 53, 36, 35, 32⟩, ⟨54, 54, 36, 36, 33⟩,
      ⟨55, 55, 44, 44, 27⟩, ⟨55, 56, 44, 37, 28⟩, ⟨56, 55, 37, 44, 29⟩, ⟨56, 56, 37, 37, 30⟩,
      ⟨56, 57, 37, 38, 31⟩, ⟨57, 56, 38, 37, 32⟩, ⟨57, 57, 38, 38, 33⟩, ⟨58, 58, 60, 60, 4⟩,
      ⟨58, 59, 60, 47, 25⟩, ⟨59, 58, 47, 60, 5⟩, ⟨59, 59, 47, 47, 26⟩, ⟨60, 60, 53, 53, 4⟩,
      ⟨60, 61, 53, 48, 25⟩, ⟨61, 60, 48, 53, 5⟩, ⟨61, 61, 48, 48, 26⟩, ⟨62, 62, 56, 56, 4⟩,
      ⟨62, 63, 56, 49, 25⟩, ⟨63, 62, 49, 56, 5⟩, ⟨63, 63, 49, 49, 26⟩, ⟨64, 64, 61, 61, 0⟩]⟩,
    ⟨[.plus 0, .plus 2, .plus 0], [0, 3, 0], some [
      ⟨1, 1, 0, 118, 0⟩, ⟨2, 2, 2, 4, 44⟩, ⟨3, 2, 4, 4, 45⟩, ⟨3, 3, 4, 119, 0⟩, ⟨4, 4, 6, 8, 44⟩,
      ⟨5, 4, 8, 8, 45⟩, ⟨5, 5, 8, 120, 0⟩, ⟨6, 6, 10, 1, 44⟩, ⟨7, 6, 1, 1, 45⟩,
      ⟨7, 7, 1, 121, 0⟩, ⟨8, 8, 13, 98, 0⟩, ⟨9, 9, 15, 22, 0⟩, ⟨10, 10, 3, 5, 0⟩,
      ⟨11, 11, 3, 5, 0⟩, ⟨12, 12, 7, 9, 0⟩, ⟨13, 13, 11, 12, 0⟩, ⟨14, 14, 20, 15, 46⟩,
      ⟨15, 14, 15, 15, 47⟩, ⟨15, 15, 15, 22, 48⟩, ⟨16, 14, 22, 15, 49⟩, ⟨16, 15, 22, 22, 50⟩,
      ⟨16, 16, 22, 122, 0⟩, ⟨17, 17, 24, 3, 46⟩, ⟨18, 17, 3, 3, 47⟩, ⟨18, 18, 3, 5, 48⟩,
      ⟨19, 17, 5, 3, 49⟩, ⟨19, 18, 5, 5, 50⟩, ⟨19, 19, 5, 123, 0⟩, ⟨20, 20, 27, 7, 46⟩,
      ⟨21, 20, 7, 7, 47⟩, ⟨21, 21, 7, 9, 48⟩, ⟨22, 20, 9, 7, 49⟩, ⟨22, 21, 9, 9, 50⟩,
      ⟨22, 22, 9, 124, 0⟩, ⟨23, 23, 30, 32, 44⟩, ⟨24, 23, 32, 32, 45⟩, ⟨24, 24, 32, 100, 0⟩,
      ⟨25, 25, 34, 14, 44⟩, ⟨26, 25, 14, 14, 45⟩, ⟨26, 26, 14, 83, 0⟩, ⟨27, 27, 34, 14, 44⟩,
      ⟨28, 27, 14, 14, 45⟩, ⟨28, 28, 14, 83, 0⟩, ⟨29, 29, 21, 16, 44⟩, ⟨30, 29, 16, 16, 45⟩,
      ⟨30, 30, 16, 23, 0⟩, ⟨31, 31, 21, 16, 44⟩, ⟨32, 31, 16, 16, 45⟩, ⟨32, 32, 16, 23, 0⟩,
      ⟨33, 33, 25, 17, 44⟩, ⟨34, 33, 17, 17, 45⟩, ⟨34, 34, 17, 26, 0⟩, ⟨35, 35, 25, 17, 44⟩,
      ⟨36, 35, 17, 17, 45⟩, ⟨36, 36, 17, 26, 0⟩, ⟨37, 37, 28, 18, 44⟩, ⟨38, 37, 18, 18, 45⟩,
      ⟨38, 38, 18, 29, 0⟩, ⟨39, 39, 43, 21, 51⟩, ⟨40, 39, 21, 21, 52⟩, ⟨40, 40, 21, 16, 53⟩,
      ⟨41, 39, 16, 21, 54⟩, ⟨41, 40, 16, 16, 55⟩, ⟨41, 41, 16, 23, 56⟩, ⟨42, 40, 23, 16, 57⟩,
      ⟨42, 41, 23, 23, 58⟩, ⟨42, 42, 23, 125, 59⟩, ⟨43, 43, 46, 84, 0⟩, ⟨44, 44, 31, 33, 0⟩,
      ⟨45, 45, 35, 36, 0⟩, ⟨46, 46, 35, 36, 0⟩, ⟨47, 47, 37, 38, 0⟩, ⟨48, 48, 39, 40, 0⟩,
      ⟨49, 49, 52, 31, 46⟩, ⟨50, 49, 31, 31, 47⟩, ⟨50, 50, 31, 33, 48⟩, ⟨51, 49, 33, 31, 49⟩,
      ⟨51, 50, 33, 33, 50⟩, ⟨51, 51, 33, 103, 0⟩, ⟨52, 52, 55, 35, 46⟩, ⟨53, 52, 35, 35, 47⟩,
      ⟨53, 53, 35, 36, 48⟩, ⟨54, 52, 36, 35, 49⟩, ⟨54, 53, 36, 36, 50⟩, ⟨54, 54, 36, 85, 0⟩,
      ⟨55, 55, 44, 37, 46⟩, ⟨56, 55, 37, 37, 47⟩, ⟨56, 56, 37, 38, 48⟩, ⟨57, 55, 38, 37, 49⟩,
      ⟨57, 56, 38, 38, 50⟩, ⟨57, 57, 38, 45, 0⟩, ⟨58, 58, 60, 47, 44⟩, ⟨59, 58, 47, 47, 45⟩,
      ⟨59, 59, 47, 87, 0⟩, ⟨60, 60, 53, 48, 44⟩, ⟨61, 60, 48, 48, 45⟩, ⟨61, 61, 48, 54, 0⟩,
      ⟨62, 62, 56, 49, 44⟩, ⟨63, 62, 49, 49, 45⟩, ⟨63, 63, 49, 57, 0⟩, ⟨64, 64, 61, 62, 0⟩]⟩,
    ⟨[.plus 0, .plus (-2), .plus 0], [0, 3, 0], some [
      ⟨1, 1, 0, 126, 0⟩, ⟨2, 2, 2, 127, 0⟩, ⟨2, 3, 2, 2, 15⟩, ⟨3, 3, 4, 2, 60⟩,
      ⟨4, 4, 6, 128, 0⟩, ⟨4, 5, 6, 6, 15⟩, ⟨5, 5, 8, 6, 60⟩, ⟨6, 6, 10, 129, 0⟩,
      ⟨6, 7, 10, 10, 15⟩, ⟨7, 7, 1, 10, 60⟩, ⟨8, 8, 13, 109, 0⟩, ⟨9, 9, 15, 20, 0⟩,
      ⟨10, 10, 3, 24, 0⟩, ⟨11, 11, 3, 24, 0⟩, ⟨12, 12, 7, 27, 0⟩, ⟨13, 13, 11, 68, 0⟩,
      ⟨14, 14, 20, 130, 0⟩, ⟨14, 15, 20, 20, 61⟩, ⟨14, 16, 20, 15, 62⟩, ⟨15, 15, 15, 20, 63⟩,
      ⟨15, 16, 15, 15, 28⟩, ⟨16, 16, 22, 15, 64⟩, ⟨17, 17, 24, 131, 0⟩, ⟨17, 18, 24, 24, 61⟩,
      ⟨17, 19, 24, 3, 62⟩, ⟨18, 18, 3, 24, 63⟩, ⟨18, 19, 3, 3, 28⟩, ⟨19, 19, 5, 3, 64⟩,
      ⟨20, 20, 27, 132, 0⟩, ⟨20, 21, 27, 27, 61⟩, ⟨20, 22, 27, 7, 62⟩, ⟨21, 21, 7, 27, 63⟩,
      ⟨21, 22, 7, 7, 28⟩, ⟨22, 22, 9, 7, 64⟩, ⟨23, 23, 30, 111, 0⟩, ⟨23, 24, 30, 30, 15⟩,
      ⟨24, 24, 32, 30, 60⟩, ⟨25, 25, 34, 91, 0⟩, ⟨25, 26, 34, 34, 15⟩, ⟨26, 26, 14, 34, 60⟩,
      ⟨27, 27, 34, 91, 0⟩, ⟨27, 28, 34, 34, 15⟩, ⟨28, 28, 14, 34, 60⟩, ⟨29, 29, 21, 43, 0⟩,
      ⟨29, 30, 21, 21, 15⟩, ⟨30, 30, 16, 21, 60⟩, ⟨31, 31, 21, 43, 0⟩, ⟨31, 32, 21, 21, 15⟩,
      ⟨32, 32, 16, 21, 60⟩, ⟨33, 33, 25, 70, 0⟩, ⟨33, 34, 25, 25, 15⟩, ⟨34, 34, 17, 25, 60⟩,
      ⟨35, 35, 25, 70, 0⟩, ⟨35, 36, 25, 25, 15⟩, ⟨36, 36, 17, 25, 60⟩, ⟨37, 37, 28, 71, 0⟩,
      ⟨37, 38, 28, 28, 15⟩, ⟨38, 38, 18, 28, 60⟩, ⟨39, 39, 43, 133, 0⟩, ⟨39, 40, 43, 43, 65⟩,
      ⟨39, 41, 43, 21, 66⟩, ⟨40, 40, 21, 43, 34⟩, ⟨40, 41, 21, 21, 67⟩, ⟨40, 42, 21, 16, 54⟩,
      ⟨41, 41, 16, 21, 68⟩, ⟨41, 42, 16, 16, 69⟩, ⟨42, 42, 23, 16, 70⟩, ⟨43, 43, 46, 92, 0⟩,
      ⟨44, 44, 31, 52, 0⟩, ⟨45, 45, 35, 55, 0⟩, ⟨46, 46, 35, 55, 0⟩, ⟨47, 47, 37, 44, 0⟩,
      ⟨48, 48, 39, 72, 0⟩, ⟨49, 49, 52, 113, 0⟩, ⟨49, 50, 52, 52, 61⟩, ⟨49, 51, 52, 31, 62⟩,
      ⟨50, 50, 31, 52, 63⟩, ⟨50, 51, 31, 31, 28⟩, ⟨51, 51, 33, 31, 64⟩, ⟨52, 52, 55, 93, 0⟩,
      ⟨52, 53, 55, 55, 61⟩, ⟨52, 54, 55, 35, 62⟩, ⟨53, 53, 35, 55, 63⟩, ⟨53, 54, 35, 35, 28⟩,
      ⟨54, 54, 36, 35, 64⟩, ⟨55, 55, 44, 74, 0⟩, ⟨55, 56, 44, 44, 61⟩, ⟨55, 57, 44, 37, 62⟩,
      ⟨56, 56, 37, 44, 63⟩, ⟨56, 57, 37, 37, 28⟩, ⟨57, 57, 38, 37, 64⟩, ⟨58, 58, 60, 95, 0⟩,
      ⟨58, 59, 60, 60, 15⟩, ⟨59, 59, 47, 60, 60⟩, ⟨60, 60, 53, 76, 0⟩, ⟨60, 61, 53, 53, 15⟩,
      ⟨61, 61, 48, 53, 60⟩, ⟨62, 62, 56, 77, 0⟩, ⟨62, 63, 56, 56, 15⟩, ⟨63, 63, 49, 56, 60⟩,
      ⟨64, 64, 61, 79, 0⟩]⟩]

/-- The label expressions in the operator tables of `QSZ`. -/
def labs_QSZ : List LabelExpr := [
  [.plus 1, .plus 0],
  [.plus 0, .plus 1],
  [.plus (-1), .plus 2],
  [.plus 0, .plus (-1)],
  [.plus (-1), .plus 0],
  [.plus (-2), .plus 1],
  [.plus (-1), .plus (-2)],
  [.plus (-2), .plus (-1)],
  [.plus 2, .plus 0],
  [.plus 1, .plus 1],
  [.plus 0, .plus 2],
  [.plus 1, .plus (-1)],
  [.plus 0, .plus 0],
  [.plus (-1), .plus 3],
  [.plus (-1), .plus 1],
  [.plus 0, .plus (-2)],
  [.plus (-1), .plus (-1)],
  [.plus (-2), .plus 2],
  [.plus (-2), .plus 0],
  [.plus (-3), .plus 1],
  [.plus (-1), .plus (-3)],
  [.plus (-2), .plus (-2)],
  [.plus (-3), .plus (-1)],
  [.plus 3, .plus 0],
  [.plus 2, .plus 1],
  [.plus 1, .plus 2],
  [.plus 2, .plus (-1)],
  [.plus 0, .plus 3],
  [.plus 1, .plus (-2)],
  [.plus (-1), .plus 4],
  [.plus 0, .plus (-3)],
  [.plus (-2), .plus 3],
  [.plus (-3), .plus 2],
  [.plus (-3), .plus 0],
  [.plus (-4), .plus 1],
  [.plus (-1), .plus (-4)],
  [.plus (-2), .plus (-3)],
  [.plus (-3), .plus (-2)],
  [.plus (-4), .plus (-1)],
  [.plus 2, .plus 2],
  [.plus 1, .plus 3],
  [.plus 0, .plus 4],
  [.plus 2, .plus (-2)],
  [.plus 1, .plus (-3)],
  [.plus 0, .plus (-4)]]

/-- `recalc_doublet` in `nrg-recalc-QSZ.hpp:34-`, 1 channel(s): `qsz-1ch-doubletp.dat`, `qsz-1ch-doubletm.dat`. -/
def op_QSZ_1ch_doublet : OpTable where
  builtin := ⟨"QSZ", 1, fields_QSZ, tab_QSZ_1ch⟩
  kind := .doublet
  labs := labs_QSZ
  targets := [
    ⟨[.plus (-1), .plus 1], [1, -1], some [
      ⟨1, 1, 0, 1, 0⟩, ⟨2, 2, 1, 2, 1⟩, ⟨3, 3, 3, 4, 1⟩, ⟨4, 4, 4, 5, 0⟩]⟩,
    ⟨[.plus (-1), .plus (-1)], [1, 1], some [
      ⟨1, 1, 0, 3, 0⟩, ⟨2, 2, 1, 4, 1⟩, ⟨3, 3, 3, 6, 1⟩, ⟨4, 4, 4, 7, 0⟩]⟩]

/-- `recalc_doublet` in `nrg-recalc-QSZ.hpp:34-`, 2 channel(s): `qsz-2ch-doubletp.dat`, `qsz-2ch-doubletm.dat`. -/
def op_QSZ_2ch_doublet : OpTable where
  builtin := ⟨"QSZ", 2, fields_QSZ, tab_QSZ_2ch⟩
  kind := .doublet
  labs := labs_QSZ
  targets := [
    ⟨[.plus (-1), .plus 1], [1, -1], some [
      ⟨1, 1, 8, 9, 0⟩, ⟨2, 2, 9, 10, 1⟩, ⟨3, 3, 9, 10, 1⟩, ⟨4, 4, 11, 12, 1⟩, ⟨5, 5, 11, 12, 1⟩,
      ⟨6, 6, 10, 13, 0⟩, ⟨7, 7, 12, 14, 0⟩, ⟨8, 8, 12, 14, 0⟩, ⟨9, 9, 12, 14, 0⟩,
      ⟨10, 10, 12, 14, 0⟩, ⟨11, 11, 15, 16, 0⟩, ⟨12, 12, 14, 17, 1⟩, ⟨13, 13, 14, 17, 1⟩,
      ⟨14, 14, 16, 18, 1⟩, ⟨15, 15, 16, 18, 1⟩, ⟨16, 16, 18, 19, 0⟩]⟩,
    ⟨[.plus (-1), .plus (-1)], [1, 1], some [
      ⟨1, 1, 8, 11, 0⟩, ⟨2, 2, 9, 12, 1⟩, ⟨3, 3, 9, 12, 1⟩, ⟨4, 4, 11, 15, 1⟩, ⟨5, 5, 11, 15, 1⟩,
      ⟨6, 6, 10, 14, 0⟩, ⟨7, 7, 12, 16, 0⟩, ⟨8, 8, 12, 16, 0⟩, ⟨9, 9, 12, 16, 0⟩,
      ⟨10, 10, 12, 16, 0⟩, ⟨11, 11, 15, 20, 0⟩, ⟨12, 12, 14, 18, 1⟩, ⟨13, 13, 14, 18, 1⟩,
      ⟨14, 14, 16, 21, 1⟩, ⟨15, 15, 16, 21, 1⟩, ⟨16, 16, 18, 22, 0⟩]⟩]

/-- `recalc_doublet` in `nrg-recalc-QSZ.hpp:34-`, 3 channel(s): `qsz-3ch-doubletp.dat`, `qsz-3ch-doubletm.dat`. -/
def op_QSZ_3ch_doublet : OpTable where
  builtin := ⟨"QSZ", 3, fields_QSZ, tab_QSZ_3ch⟩
  kind := .doublet
  labs := labs_QSZ
  targets := [
    ⟨[.plus (-1), .plus 1], [1, -1], some [
      ⟨1, 1, 23, 24, 0⟩, ⟨2, 2, 24, 25, 1⟩, ⟨3, 3, 24, 25, 1⟩, ⟨4, 4, 24, 25, 1⟩,
      ⟨5, 5, 26, 0, 1⟩, ⟨6, 6, 26, 0, 1⟩, ⟨7, 7, 26, 0, 1⟩, ⟨8, 8, 25, 27, 0⟩, ⟨9, 9, 25, 27, 0⟩,
      ⟨10, 10, 25, 27, 0⟩, ⟨11, 11, 0, 1, 0⟩, ⟨12, 12, 0, 1, 0⟩, ⟨13, 13, 0, 1, 0⟩,
      ⟨14, 14, 0, 1, 0⟩, ⟨15, 15, 0, 1, 0⟩, ⟨16, 16, 0, 1, 0⟩, ⟨17, 17, 0, 1, 0⟩,
      ⟨18, 18, 0, 1, 0⟩, ⟨19, 19, 0, 1, 0⟩, ⟨20, 20, 28, 3, 0⟩, ⟨21, 21, 28, 3, 0⟩,
      ⟨22, 22, 28, 3, 0⟩, ⟨23, 23, 27, 29, 1⟩, ⟨24, 24, 1, 2, 1⟩, ⟨25, 25, 1, 2, 1⟩,
      ⟨26, 26, 1, 2, 1⟩, ⟨27, 27, 1, 2, 1⟩, ⟨28, 28, 1, 2, 1⟩, ⟨29, 29, 1, 2, 1⟩,
      ⟨30, 30, 1, 2, 1⟩, ⟨31, 31, 1, 2, 1⟩, ⟨32, 32, 1, 2, 1⟩, ⟨33, 33, 3, 4, 1⟩,
      ⟨34, 34, 3, 4, 1⟩, ⟨35, 35, 3, 4, 1⟩, ⟨36, 36, 3, 4, 1⟩, ⟨37, 37, 3, 4, 1⟩,
      ⟨38, 38, 3, 4, 1⟩, ⟨39, 39, 3, 4, 1⟩, ⟨40, 40, 3, 4, 1⟩, ⟨41, 41, 3, 4, 1⟩,
      ⟨42, 42, 30, 6, 1⟩, ⟨43, 43, 2, 31, 0⟩, ⟨44, 44, 2, 31, 0⟩, ⟨45, 45, 2, 31, 0⟩,
      ⟨46, 46, 4, 5, 0⟩, ⟨47, 47, 4, 5, 0⟩, ⟨48, 48, 4, 5, 0⟩, ⟨49, 49, 4, 5, 0⟩,
      ⟨50, 50, 4, 5, 0⟩, ⟨51, 51, 4, 5, 0⟩, ⟨52, 52, 4, 5, 0⟩, ⟨53, 53, 4, 5, 0⟩,
      ⟨54, 54, 4, 5, 0⟩, ⟨55, 55, 6, 7, 0⟩, ⟨56, 56, 6, 7, 0⟩, ⟨57, 57, 6, 7, 0⟩,
      ⟨58, 58, 5, 32, 1⟩, ⟨59, 59, 5, 32, 1⟩, ⟨60, 60, 5, 32, 1⟩, ⟨61, 61, 7, 33, 1⟩,
      ⟨62, 62, 7, 33, 1⟩, ⟨63, 63, 7, 33, 1⟩, ⟨64, 64, 33, 34, 0⟩]⟩,
    ⟨[.plus (-1), .plus (-1)], [1, 1], some [
      ⟨1, 1, 23, 26, 0⟩, ⟨2, 2, 24, 0, 1⟩, ⟨3, 3, 24, 0, 1⟩, ⟨4, 4, 24, 0, 1⟩, ⟨5, 5, 26, 28, 1⟩,
      ⟨6, 6, 26, 28, 1⟩, ⟨7, 7, 26, 28, 1⟩, ⟨8, 8, 25, 1, 0⟩, ⟨9, 9, 25, 1, 0⟩,
      ⟨10, 10, 25, 1, 0⟩, ⟨11, 11, 0, 3, 0⟩, ⟨12, 12, 0, 3, 0⟩, ⟨13, 13, 0, 3, 0⟩,
      ⟨14, 14, 0, 3, 0⟩, ⟨15, 15, 0, 3, 0⟩, ⟨16, 16, 0, 3, 0⟩, ⟨17, 17, 0, 3, 0⟩,
      ⟨18, 18, 0, 3, 0⟩, ⟨19, 19, 0, 3, 0⟩, ⟨20, 20, 28, 30, 0⟩, ⟨21, 21, 28, 30, 0⟩,
      ⟨22, 22, 28, 30, 0⟩, ⟨23, 23, 27, 2, 1⟩, ⟨24, 24, 1, 4, 1⟩, ⟨25, 25, 1, 4, 1⟩,
      ⟨26, 26, 1, 4, 1⟩, ⟨27, 27, 1, 4, 1⟩, ⟨28, 28, 1, 4, 1⟩, ⟨29, 29, 1, 4, 1⟩,
      ⟨30, 30, 1, 4, 1⟩, ⟨31, 31, 1, 4, 1⟩, ⟨32, 32, 1, 4, 1⟩, ⟨33, 33, 3, 6, 1⟩,
      ⟨34, 34, 3, 6, 1⟩, ⟨35, 35, 3, 6, 1⟩, ⟨36, 36, 3, 6, 1⟩, ⟨37, 37, 3, 6, 1⟩,
      ⟨38, 38, 3, 6, 1⟩, ⟨39, 39, 3, 6, 1⟩, ⟨40, 40, 3, 6, 1⟩, ⟨41, 41, 3, 6, 1⟩,
      ⟨42, 42, 30, 35, 1⟩, ⟨43, 43, 2, 5, 0⟩, ⟨44, 44, 2, 5, 0⟩, ⟨45, 45, 2, 5, 0⟩,
      ⟨46, 46, 4, 7, 0⟩, ⟨47, 47, 4, 7, 0⟩, ⟨48, 48, 4, 7, 0⟩, ⟨49, 49, 4, 7, 0⟩,
      ⟨50, 50, 4, 7, 0⟩, ⟨51, 51, 4, 7, 0⟩, ⟨52, 52, 4, 7, 0⟩, ⟨53, 53, 4, 7, 0⟩,
      ⟨54, 54, 4, 7, 0⟩, ⟨55, 55, 6, 36, 0⟩, ⟨56, 56, 6, 36, 0⟩, ⟨57, 57, 6, 36, 0⟩,
      ⟨58, 58, 5, 33, 1⟩, ⟨59, 59, 5, 33, 1⟩, ⟨60, 60, 5, 33, 1⟩, ⟨61, 61, 7, 37, 1⟩,
      ⟨62, 62, 7, 37, 1⟩, ⟨63, 63, 7, 37, 1⟩, ⟨64, 64, 33, 38, 0⟩]⟩]

/-- `recalc_triplet` in `nrg-recalc-QSZ.hpp:340-`, 1 channel(s): `qsz-1ch-triplets.dat`, `qsz-1ch-tripletp.dat`, `qsz-1ch-tripletm.dat`. -/
def op_QSZ_1ch_triplet : OpTable where
  builtin := ⟨"QSZ", 1, fields_QSZ, tab_QSZ_1ch⟩
  kind := .triplet
  labs := labs_QSZ
  targets := [
    ⟨[.plus 0, .plus 0], [0, 0], some [
      ⟨1, 1, 0, 0, 0⟩, ⟨2, 2, 1, 1, 0⟩, ⟨3, 3, 3, 3, 0⟩, ⟨4, 4, 4, 4, 0⟩]⟩,
    ⟨[.plus 0, .plus 2], [0, -2], some [
      ⟨1, 1, 0, 25, 0⟩, ⟨2, 2, 1, 27, 0⟩, ⟨3, 3, 3, 1, 0⟩, ⟨4, 4, 4, 2, 0⟩]⟩,
    ⟨[.plus 0, .plus (-2)], [0, 2], some [
      ⟨1, 1, 0, 28, 0⟩, ⟨2, 2, 1, 3, 0⟩, ⟨3, 3, 3, 30, 0⟩, ⟨4, 4, 4, 6, 0⟩]⟩]

/-- `recalc_triplet` in `nrg-recalc-QSZ.hpp:340-`, 2 channel(s): `qsz-2ch-triplets.dat`, `qsz-2ch-tripletp.dat`, `qsz-2ch-tripletm.dat`. -/
def op_QSZ_2ch_triplet : OpTable where
  builtin := ⟨"QSZ", 2, fields_QSZ, tab_QSZ_2ch⟩
  kind := .triplet
  labs := labs_QSZ
  targets := [
    ⟨[.plus 0, .plus 0], [0, 0], some [
      ⟨1, 1, 8, 8, 0⟩, ⟨2, 2, 9, 9, 0⟩, ⟨3, 3, 9, 9, 0⟩, ⟨4, 4, 11, 11, 0⟩, ⟨5, 5, 11, 11, 0⟩,
      ⟨6, 6, 10, 10, 0⟩, ⟨7, 7, 12, 12, 0⟩, ⟨8, 8, 12, 12, 0⟩, ⟨9, 9, 12, 12, 0⟩,
      ⟨10, 10, 12, 12, 0⟩, ⟨11, 11, 15, 15, 0⟩, ⟨12, 12, 14, 14, 0⟩, ⟨13, 13, 14, 14, 0⟩,
      ⟨14, 14, 16, 16, 0⟩, ⟨15, 15, 16, 16, 0⟩, ⟨16, 16, 18, 18, 0⟩]⟩,
    ⟨[.plus 0, .plus 2], [0, -2], some [
      ⟨1, 1, 8, 39, 0⟩, ⟨2, 2, 9, 40, 0⟩, ⟨3, 3, 9, 40, 0⟩, ⟨4, 4, 11, 9, 0⟩, ⟨5, 5, 11, 9, 0⟩,
      ⟨6, 6, 10, 41, 0⟩, ⟨7, 7, 12, 10, 0⟩, ⟨8, 8, 12, 10, 0⟩, ⟨9, 9, 12, 10, 0⟩,
      ⟨10, 10, 12, 10, 0⟩, ⟨11, 11, 15, 12, 0⟩, ⟨12, 12, 14, 13, 0⟩, ⟨13, 13, 14, 13, 0⟩,
      ⟨14, 14, 16, 14, 0⟩, ⟨15, 15, 16, 14, 0⟩, ⟨16, 16, 18, 17, 0⟩]⟩,
    ⟨[.plus 0, .plus (-2)], [0, 2], some [
      ⟨1, 1, 8, 42, 0⟩, ⟨2, 2, 9, 11, 0⟩, ⟨3, 3, 9, 11, 0⟩, ⟨4, 4, 11, 43, 0⟩, ⟨5, 5, 11, 43, 0⟩,
      ⟨6, 6, 10, 12, 0⟩, ⟨7, 7, 12, 15, 0⟩, ⟨8, 8, 12, 15, 0⟩, ⟨9, 9, 12, 15, 0⟩,
      ⟨10, 10, 12, 15, 0⟩, ⟨11, 11, 15, 44, 0⟩, ⟨12, 12, 14, 16, 0⟩, ⟨13, 13, 14, 16, 0⟩,
      ⟨14, 14, 16, 20, 0⟩, ⟨15, 15, 16, 20, 0⟩, ⟨16, 16, 18, 21, 0⟩]⟩]

/-- `recalc_triplet` in `nrg-recalc-QSZ.hpp:340-`, 3 channel(s): `qsz-3ch-triplets.dat`. -/
def op_QSZ_3ch_triplet : OpTable where
  builtin := ⟨"QSZ", 3, fields_QSZ, tab_QSZ_3ch⟩
  kind := .triplet
  labs := labs_QSZ
  targets := [
    ⟨[.plus 0, .plus 0], [0, 0], some [
      ⟨1, 1, 23, 23, 0⟩, ⟨2, 2, 24, 24, 0⟩, ⟨3, 3, 24, 24, 0⟩, ⟨4, 4, 24, 24, 0⟩,
      ⟨5, 5, 26, 26, 0⟩, ⟨6, 6, 26, 26, 0⟩, ⟨7, 7, 26, 26, 0⟩, ⟨8, 8, 25, 25, 0⟩,
      ⟨9, 9, 25, 25, 0⟩, ⟨10, 10, 25, 25, 0⟩, ⟨11, 11, 0, 0, 0⟩, ⟨12, 12, 0, 0, 0⟩,
      ⟨13, 13, 0, 0, 0⟩, ⟨14, 14, 0, 0, 0⟩, ⟨15, 15, 0, 0, 0⟩, ⟨16, 16, 0, 0, 0⟩,
      ⟨17, 17, 0, 0, 0⟩, ⟨18, 18, 0, 0, 0⟩, ⟨19, 19, 0, 0, 0⟩, ⟨20, 20, 28, 28, 0⟩,
      ⟨21, 21, 28, 28, 0⟩, ⟨22, 22, 28, 28, 0⟩, ⟨23, 23, 27, 27, 0⟩, ⟨24, 24, 1, 1, 0⟩,
      ⟨25, 25, 1, 1, 0⟩, ⟨26, 26, 1, 1, 0⟩, ⟨27, 27, 1, 1, 0⟩, ⟨28, 28, 1, 1, 0⟩,
      ⟨29, 29, 1, 1, 0⟩, ⟨30, 30, 1, 1, 0⟩, ⟨31, 31, 1, 1, 0⟩, ⟨32, 32, 1, 1, 0⟩,
      ⟨33, 33, 3, 3, 0⟩, ⟨34, 34, 3, 3, 0⟩, ⟨35, 35, 3, 3, 0⟩, ⟨36, 36, 3, 3, 0⟩,
      ⟨37, 37, 3, 3, 0⟩, ⟨38, 38, 3, 3, 0⟩, ⟨39, 39, 3, 3, 0⟩, ⟨40, 40, 3, 3, 0⟩,
      ⟨41, 41, 3, 3, 0⟩, ⟨42, 42, 30, 30, 0⟩, ⟨43, 43, 2, 2, 0⟩, ⟨44, 44, 2, 2, 0⟩,
      ⟨45, 45, 2, 2, 0⟩, ⟨46, 46, 4, 4, 0⟩, ⟨47, 47, 4, 4, 0⟩, ⟨48, 48, 4, 4, 0⟩,
      ⟨49, 49, 4, 4, 0⟩, ⟨50, 50, 4, 4, 0⟩, ⟨51, 51, 4, 4, 0⟩, ⟨52, 52, 4, 4, 0⟩,
      ⟨53, 53, 4, 4, 0⟩, ⟨54, 54, 4, 4, 0⟩, ⟨55, 55, 6, 6, 0⟩, ⟨56, 56, 6, 6, 0⟩,
      ⟨57, 57, 6, 6, 0⟩, ⟨58, 58, 5, 5, 0⟩, ⟨59, 59, 5, 5, 0⟩, ⟨60, 60, 5, 5, 0⟩,
      ⟨61, 61, 7, 7, 0⟩, ⟨62, 62, 7, 7, 0⟩, ⟨63, 63, 7, 7, 0⟩, ⟨64, 64, 33, 33, 0⟩]⟩,
    ⟨[.plus 0, .plus 2], [0, -2], none⟩,
    ⟨[.plus 0, .plus (-2)], [0, 2], none⟩]

/-- The label expressions in the operator tables of `QSZTZ`. -/
def labs_QSZTZ : List LabelExpr := [
  [.plus 3, .plus 0, .plus 0],
  [.plus 2, .plus 1, .plus (-1)],
  [.plus 2, .plus 1, .plus 1],
  [.plus 1, .plus 2, .plus 0],
  [.plus 2, .plus 1, .plus 0],
  [.plus 1, .plus 2, .plus (-1)],
  [.plus 1, .plus 2, .plus (-2)],
  [.plus 2, .plus (-1), .plus 1],
  [.plus 1, .plus 0, .plus 0],
  [.plus 2, .plus (-1), .plus 0],
  [.plus 1, .plus 0, .plus (-1)],
  [.plus 2, .plus (-1), .plus (-1)],
  [.plus 1, .plus 0, .plus (-2)],
  [.plus 1, .plus 2, .plus 1],
  [.plus 0, .plus 3, .plus 0],
  [.plus 0, .plus 3, .plus (-1)],
  [.plus 0, .plus 3, .plus (-2)],
  [.plus 1, .plus 0, .plus 2],
  [.plus 0, .plus 1, .plus 1],
  [.plus 1, .plus 0, .plus 1],
  [.plus 0, .plus 1, .plus 0],
  [.plus 0, .plus 1, .plus (-1)],
  [.plus 0, .plus 1, .plus (-2)],
  [.plus 0, .plus 1, .plus (-3)],
  [.plus 1, .plus (-2), .plus 1],
  [.plus 0, .plus (-1), .plus 0],
  [.plus 1, .plus (-2), .plus 0],
  [.plus 0, .plus (-1), .plus (-1)],
  [.plus 1, .plus (-2), .plus (-1)],
  [.plus 0, .plus (-1), .plus (-2)],
  [.plus (-1), .plus 4, .plus (-1)],
  [.plus 0, .plus 1, .plus 2],
  [.plus (-1), .plus 2, .plus 1],
  [.plus (-1), .plus 2, .plus 0],
  [.plus (-1), .plus 2, .plus (-1)],
  [.plus (-1), .plus 2, .plus (-2)],
  [.plus (-1), .plus 2, .plus (-3)],
  [.plus 0, .plus (-1), .plus 2],
  [.plus (-1), .plus 0, .plus 1],
  [.plus 0, .plus (-1), .plus 1],
  [.plus (-1), .plus 0, .plus 0],
  [.plus (-1), .plus 0, .plus (-1)],
  [.plus (-1), .plus 0, .plus (-2)],
  [.plus (-1), .plus 0, .plus (-3)],
  [.plus 0, .plus (-3), .plus 0],
  [.plus (-1), .plus (-2), .plus (-1)],
  [.plus (-2), .plus 3, .plus 0],
  [.plus (-2), .plus 3, .plus (-1)],
  [.plus (-2), .plus 3, .plus (-2)],
  [.plus (-1), .plus 0, .plus 2],
  [.plus (-2), .plus 1, .plus 1],
  [.plus (-2), .plus 1, .plus 0],
  [.plus (-2), .plus 1, .plus (-1)],
  [.plus (-2), .plus 1, .plus (-2)],
  [.plus (-2), .plus 1, .plus (-3)],
  [.plus (-1), .plus (-2), .plus 1],
  [.plus (-2), .plus (-1), .plus 0],
  [.plus (-1), .plus (-2), .plus 0],
  [.plus (-2), .plus (-1), .plus (-1)],
  [.plus (-2), .plus (-1), .plus (-2)],
  [.plus (-3), .plus 2, .plus 0],
  [.plus (-3), .plus 2, .plus (-1)],
  [.plus (-3), .plus 2, .plus (-2)],
  [.plus (-2), .plus (-1), .plus 1],
  [.plus (-3), .plus 0, .plus 0],
  [.plus (-3), .plus 0, .plus (-1)],
  [.plus (-3), .plus 0, .plus (-2)],
  [.plus (-4), .plus 1, .plus (-1)],
  [.plus 1, .plus (-2), .plus (-2)],
  [.plus 0, .plus (-1), .plus (-3)],
  [.plus 0, .plus (-3), .plus (-1)],
  [.plus 0, .plus (-3), .plus (-2)],
  [.plus (-1), .plus (-2), .plus (-2)],
  [.plus (-1), .plus (-2), .plus (-3)],
  [.plus (-1), .plus (-4), .plus (-1)],
  [.plus (-2), .plus (-1), .plus (-3)],
  [.plus (-2), .plus (-3), .plus 0],
  [.plus (-2), .plus (-3), .plus (-1)],
  [.plus (-2), .plus (-3), .plus (-2)],
  [.plus (-3), .plus (-2), .plus 0],
  [.plus (-3), .plus (-2), .plus (-1)],
  [.plus (-3), .plus (-2), .plus (-2)],
  [.plus (-4), .plus (-1), .plus (-1)],
  [.plus 0, .plus 3, .plus 1],
  [.plus (-1), .plus 4, .plus 0],
  [.plus (-1), .plus 2, .plus 2],
  [.plus (-2), .plus 3, .plus 1],
  [.plus (-2), .plus 1, .plus 2],
  [.plus (-3), .plus 2, .plus 1],
  [.plus (-3), .plus 0, .plus 1],
  [.plus (-4), .plus 1, .plus 0],
  [.plus 0, .plus (-3), .plus 1],
  [.plus (-1), .plus (-2), .plus 2],
  [.plus (-1), .plus (-4), .plus 0],
  [.plus (-2), .plus (-1), .plus 2],
  [.plus (-2), .plus (-3), .plus 1],
  [.plus (-3), .plus (-2), .plus 1],
  [.plus (-4), .plus (-1), .plus 0],
  [.plus 1, .plus 2, .plus 2],
  [.plus 0, .plus 3, .plus 2],
  [.plus 0, .plus 1, .plus 3],
  [.plus (-1), .plus 4, .plus 1],
  [.plus (-1), .plus 2, .plus 3],
  [.plus (-1), .plus 0, .plus 3],
  [.plus (-2), .plus 3, .plus 2],
  [.plus (-2), .plus 1, .plus 3],
  [.plus (-3), .plus 2, .plus 2],
  [.plus (-3), .plus 0, .plus 2],
  [.plus (-4), .plus 1, .plus 1],
  [.plus 1, .plus (-2), .plus 2],
  [.plus 0, .plus (-1), .plus 3],
  [.plus 0, .plus (-3), .plus 2],
  [.plus (-1), .plus (-2), .plus 3],
  [.plus (-1), .plus (-4), .plus 1],
  [.plus (-2), .plus (-1), .plus 3],
  [.plus (-2), .plus (-3), .plus 2],
  [.plus (-3), .plus (-2), .plus 2],
  [.plus (-4), .plus (-1), .plus 1],
  [.plus 3, .plus 2, .plus 0],
  [.plus 2, .plus 3, .plus 1],
  [.plus 2, .plus 3, .plus 0],
  [.plus 2, .plus 3, .plus (-1)],
  [.plus 1, .plus 4, .plus 1],
  [.plus 1, .plus 4, .plus 0],
  [.plus 1, .plus 4, .plus (-1)],
  [.plus 0, .plus 5, .plus 0],
  [.plus 3, .plus (-2), .plus 0],
  [.plus 2, .plus (-3), .plus 1],
  [.plus 2, .plus (-3), .plus 0],
  [.plus 2, .plus (-3), .plus (-1)],
  [.plus 1, .plus (-4), .plus 1],
  [.plus 1, .plus (-4), .plus 0],
  [.plus 1, .plus (-4), .plus (-1)],
  [.plus 0, .plus (-5), .plus 0]]

/-- `recalc_doublet` in `nrg-recalc-QSZTZ.hpp:32-`, 3 channel(s): `qsztz-doubletp-1.dat`, `qsztz-doubletm-1.dat`, `qsztz-doubletp0.dat`, `qsztz-doubletm0.dat`, `qsztz-doubletp+1.dat`, `qsztz-doubletm+1.dat`. -/
def op_QSZTZ_3ch_doublet : OpTable where
  builtin := ⟨"QSZTZ", 3, fields_QSZTZ, tab_QSZTZ_3ch⟩
  kind := .doublet
  labs := labs_QSZTZ
  targets := [
    ⟨[.plus (-1), .plus 1, .plus (-1)], [1, -1, 1], some [
      ⟨1, 1, 0, 1, 0⟩, ⟨2, 2, 2, 3, 1⟩, ⟨3, 3, 4, 5, 1⟩, ⟨4, 4, 1, 6, 1⟩, ⟨5, 5, 7, 8, 1⟩,
      ⟨6, 6, 9, 10, 1⟩, ⟨7, 7, 11, 12, 1⟩, ⟨8, 8, 13, 14, 0⟩, ⟨9, 9, 3, 15, 0⟩,
      ⟨10, 10, 5, 16, 0⟩, ⟨11, 11, 17, 18, 0⟩, ⟨12, 12, 19, 20, 0⟩, ⟨13, 13, 19, 20, 0⟩,
      ⟨14, 14, 8, 21, 0⟩, ⟨15, 15, 8, 21, 0⟩, ⟨16, 16, 8, 21, 0⟩, ⟨17, 17, 10, 22, 0⟩,
      ⟨18, 18, 10, 22, 0⟩, ⟨19, 19, 12, 23, 0⟩, ⟨20, 20, 24, 25, 0⟩, ⟨21, 21, 26, 27, 0⟩,
      ⟨22, 22, 28, 29, 0⟩, ⟨23, 23, 14, 30, 1⟩, ⟨24, 24, 31, 32, 1⟩, ⟨25, 25, 18, 33, 1⟩,
      ⟨26, 26, 18, 33, 1⟩, ⟨27, 27, 20, 34, 1⟩, ⟨28, 28, 20, 34, 1⟩, ⟨29, 29, 20, 34, 1⟩,
      ⟨30, 30, 21, 35, 1⟩, ⟨31, 31, 21, 35, 1⟩, ⟨32, 32, 22, 36, 1⟩, ⟨33, 33, 37, 38, 1⟩,
      ⟨34, 34, 39, 40, 1⟩, ⟨35, 35, 39, 40, 1⟩, ⟨36, 36, 25, 41, 1⟩, ⟨37, 37, 25, 41, 1⟩,
      ⟨38, 38, 25, 41, 1⟩, ⟨39, 39, 27, 42, 1⟩, ⟨40, 40, 27, 42, 1⟩, ⟨41, 41, 29, 43, 1⟩,
      ⟨42, 42, 44, 45, 1⟩, ⟨43, 43, 32, 46, 0⟩, ⟨44, 44, 33, 47, 0⟩, ⟨45, 45, 34, 48, 0⟩,
      ⟨46, 46, 49, 50, 0⟩, ⟨47, 47, 38, 51, 0⟩, ⟨48, 48, 38, 51, 0⟩, ⟨49, 49, 40, 52, 0⟩,
      ⟨50, 50, 40, 52, 0⟩, ⟨51, 51, 40, 52, 0⟩, ⟨52, 52, 41, 53, 0⟩, ⟨53, 53, 41, 53, 0⟩,
      ⟨54, 54, 42, 54, 0⟩, ⟨55, 55, 55, 56, 0⟩, ⟨56, 56, 57, 58, 0⟩, ⟨57, 57, 45, 59, 0⟩,
      ⟨58, 58, 50, 60, 1⟩, ⟨59, 59, 51, 61, 1⟩, ⟨60, 60, 52, 62, 1⟩, ⟨61, 61, 63, 64, 1⟩,
      ⟨62, 62, 56, 65, 1⟩, ⟨63, 63, 58, 66, 1⟩, ⟨64, 64, 64, 67, 0⟩]⟩,
    ⟨[.plus (-1), .plus (-1), .plus (-1)], [1, 1, 1], some [
      ⟨1, 1, 0, 11, 0⟩, ⟨2, 2, 2, 8, 1⟩, ⟨3, 3, 4, 10, 1⟩, ⟨4, 4, 1, 12, 1⟩, ⟨5, 5, 7, 26, 1⟩,
      ⟨6, 6, 9, 28, 1⟩, ⟨7, 7, 11, 68, 1⟩, ⟨8, 8, 13, 20, 0⟩, ⟨9, 9, 3, 21, 0⟩,
      ⟨10, 10, 5, 22, 0⟩, ⟨11, 11, 17, 39, 0⟩, ⟨12, 12, 19, 25, 0⟩, ⟨13, 13, 19, 25, 0⟩,
      ⟨14, 14, 8, 27, 0⟩, ⟨15, 15, 8, 27, 0⟩, ⟨16, 16, 8, 27, 0⟩, ⟨17, 17, 10, 29, 0⟩,
      ⟨18, 18, 10, 29, 0⟩, ⟨19, 19, 12, 69, 0⟩, ⟨20, 20, 24, 44, 0⟩, ⟨21, 21, 26, 70, 0⟩,
      ⟨22, 22, 28, 71, 0⟩, ⟨23, 23, 14, 34, 1⟩, ⟨24, 24, 31, 38, 1⟩, ⟨25, 25, 18, 40, 1⟩,
      ⟨26, 26, 18, 40, 1⟩, ⟨27, 27, 20, 41, 1⟩, ⟨28, 28, 20, 41, 1⟩, ⟨29, 29, 20, 41, 1⟩,
      ⟨30, 30, 21, 42, 1⟩, ⟨31, 31, 21, 42, 1⟩, ⟨32, 32, 22, 43, 1⟩, ⟨33, 33, 37, 55, 1⟩,
      ⟨34, 34, 39, 57, 1⟩, ⟨35, 35, 39, 57, 1⟩, ⟨36, 36, 25, 45, 1⟩, ⟨37, 37, 25, 45, 1⟩,
      ⟨38, 38, 25, 45, 1⟩, ⟨39, 39, 27, 72, 1⟩, ⟨40, 40, 27, 72, 1⟩, ⟨41, 41, 29, 73, 1⟩,
      ⟨42, 42, 44, 74, 1⟩, ⟨43, 43, 32, 51, 0⟩, ⟨44, 44, 33, 52, 0⟩, ⟨45, 45, 34, 53, 0⟩,
      ⟨46, 46, 49, 63, 0⟩, ⟨47, 47, 38, 56, 0⟩, ⟨48, 48, 38, 56, 0⟩, ⟨49, 49, 40, 58, 0⟩,
      ⟨50, 50, 40, 58, 0⟩, ⟨51, 51, 40, 58, 0⟩, ⟨52, 52, 41, 59, 0⟩, ⟨53, 53, 41, 59, 0⟩,
      ⟨54, 54, 42, 75, 0⟩, ⟨55, 55, 55, 76, 0⟩, ⟨56, 56, 57, 77, 0⟩, ⟨57, 57, 45, 78, 0⟩,
      ⟨58, 58, 50, 64, 1⟩, ⟨59, 59, 51, 65, 1⟩, ⟨60, 60, 52, 66, 1⟩, ⟨61, 61, 63, 79, 1⟩,
      ⟨62, 62, 56, 80, 1⟩, ⟨63, 63, 58, 81, 1⟩, ⟨64, 64, 64, 82, 0⟩]⟩,
    ⟨[.plus (-1), .plus 1, .plus 0], [1, -1, 0], some [
      ⟨1, 1, 0, 4, 0⟩, ⟨2, 2, 2, 13, 1⟩, ⟨3, 3, 4, 3, 1⟩, ⟨4, 4, 1, 5, 1⟩, ⟨5, 5, 7, 19, 1⟩,
      ⟨6, 6, 9, 8, 1⟩, ⟨7, 7, 11, 10, 1⟩, ⟨8, 8, 13, 83, 0⟩, ⟨9, 9, 3, 14, 0⟩,
      ⟨10, 10, 5, 15, 0⟩, ⟨11, 11, 17, 31, 0⟩, ⟨12, 12, 19, 18, 0⟩, ⟨13, 13, 19, 18, 0⟩,
      ⟨14, 14, 8, 20, 0⟩, ⟨15, 15, 8, 20, 0⟩, ⟨16, 16, 8, 20, 0⟩, ⟨17, 17, 10, 21, 0⟩,
      ⟨18, 18, 10, 21, 0⟩, ⟨19, 19, 12, 22, 0⟩, ⟨20, 20, 24, 39, 0⟩, ⟨21, 21, 26, 25, 0⟩,
      ⟨22, 22, 28, 27, 0⟩, ⟨23, 23, 14, 84, 1⟩, ⟨24, 24, 31, 85, 1⟩, ⟨25, 25, 18, 32, 1⟩,
      ⟨26, 26, 18, 32, 1⟩, ⟨27, 27, 20, 33, 1⟩, ⟨28, 28, 20, 33, 1⟩, ⟨29, 29, 20, 33, 1⟩,
      ⟨30, 30, 21, 34, 1⟩, ⟨31, 31, 21, 34, 1⟩, ⟨32, 32, 22, 35, 1⟩, ⟨33, 33, 37, 49, 1⟩,
      ⟨34, 34, 39, 38, 1⟩, ⟨35, 35, 39, 38, 1⟩, ⟨36, 36, 25, 40, 1⟩, ⟨37, 37, 25, 40, 1⟩,
      ⟨38, 38, 25, 40, 1⟩, ⟨39, 39, 27, 41, 1⟩, ⟨40, 40, 27, 41, 1⟩, ⟨41, 41, 29, 42, 1⟩,
      ⟨42, 42, 44, 57, 1⟩, ⟨43, 43, 32, 86, 0⟩, ⟨44, 44, 33, 46, 0⟩, ⟨45, 45, 34, 47, 0⟩,
      ⟨46, 46, 49, 87, 0⟩, ⟨47, 47, 38, 50, 0⟩, ⟨48, 48, 38, 50, 0⟩, ⟨49, 49, 40, 51, 0⟩,
      ⟨50, 50, 40, 51, 0⟩, ⟨51, 51, 40, 51, 0⟩, ⟨52, 52, 41, 52, 0⟩, ⟨53, 53, 41, 52, 0⟩,
      ⟨54, 54, 42, 53, 0⟩, ⟨55, 55, 55, 63, 0⟩, ⟨56, 56, 57, 56, 0⟩, ⟨57, 57, 45, 58, 0⟩,
      ⟨58, 58, 50, 88, 1⟩, ⟨59, 59, 51, 60, 1⟩, ⟨60, 60, 52, 61, 1⟩, ⟨61, 61, 63, 89, 1⟩,
      ⟨62, 62, 56, 64, 1⟩, ⟨63, 63, 58, 65, 1⟩, ⟨64, 64, 64, 90, 0⟩]⟩,
    ⟨[.plus (-1), .plus (-1), .plus 0], [1, 1, 0], some [
      ⟨1, 1, 0, 9, 0⟩, ⟨2, 2, 2, 19, 1⟩, ⟨3, 3, 4, 8, 1⟩, ⟨4, 4, 1, 10, 1⟩, ⟨5, 5, 7, 24, 1⟩,
      ⟨6, 6, 9, 26, 1⟩, ⟨7, 7, 11, 28, 1⟩, ⟨8, 8, 13, 18, 0⟩, ⟨9, 9, 3, 20, 0⟩,
      ⟨10, 10, 5, 21, 0⟩, ⟨11, 11, 17, 37, 0⟩, ⟨12, 12, 19, 39, 0⟩, ⟨13, 13, 19, 39, 0⟩,
      ⟨14, 14, 8, 25, 0⟩, ⟨15, 15, 8, 25, 0⟩, ⟨16, 16, 8, 25, 0⟩, ⟨17, 17, 10, 27, 0⟩,
      ⟨18, 18, 10, 27, 0⟩, ⟨19, 19, 12, 29, 0⟩, ⟨20, 20, 24, 91, 0⟩, ⟨21, 21, 26, 44, 0⟩,
      ⟨22, 22, 28, 70, 0⟩, ⟨23, 23, 14, 33, 1⟩, ⟨24, 24, 31, 49, 1⟩, ⟨25, 25, 18, 38, 1⟩,
      ⟨26, 26, 18, 38, 1⟩, ⟨27, 27, 20, 40, 1⟩, ⟨28, 28, 20, 40, 1⟩, ⟨29, 29, 20, 40, 1⟩,
      ⟨30, 30, 21, 41, 1⟩, ⟨31, 31, 21, 41, 1⟩, ⟨32, 32, 22, 42, 1⟩, ⟨33, 33, 37, 92, 1⟩,
      ⟨34, 34, 39, 55, 1⟩, ⟨35, 35, 39, 55, 1⟩, ⟨36, 36, 25, 57, 1⟩, ⟨37, 37, 25, 57, 1⟩,
      ⟨38, 38, 25, 57, 1⟩, ⟨39, 39, 27, 45, 1⟩, ⟨40, 40, 27, 45, 1⟩, ⟨41, 41, 29, 72, 1⟩,
      ⟨42, 42, 44, 93, 1⟩, ⟨43, 43, 32, 50, 0⟩, ⟨44, 44, 33, 51, 0⟩, ⟨45, 45, 34, 52, 0⟩,
      ⟨46, 46, 49, 94, 0⟩, ⟨47, 47, 38, 63, 0⟩, ⟨48, 48, 38, 63, 0⟩, ⟨49, 49, 40, 56, 0⟩,
      ⟨50, 50, 40, 56, 0⟩, ⟨51, 51, 40, 56, 0⟩, ⟨52, 52, 41, 58, 0⟩, ⟨53, 53, 41, 58, 0⟩,
      ⟨54, 54, 42, 59, 0⟩, ⟨55, 55, 55, 95, 0⟩, ⟨56, 56, 57, 76, 0⟩, ⟨57, 57, 45, 77, 0⟩,
      ⟨58, 58, 50, 89, 1⟩, ⟨59, 59, 51, 64, 1⟩, ⟨60, 60, 52, 65, 1⟩, ⟨61, 61, 63, 96, 1⟩,
      ⟨62, 62, 56, 79, 1⟩, ⟨63, 63, 58, 80, 1⟩, ⟨64, 64, 64, 97, 0⟩]⟩,
    ⟨[.plus (-1), .plus 1, .plus 1], [1, -1, -1], some [
      ⟨1, 1, 0, 2, 0⟩, ⟨2, 2, 2, 98, 1⟩, ⟨3, 3, 4, 13, 1⟩, ⟨4, 4, 1, 3, 1⟩, ⟨5, 5, 7, 17, 1⟩,
      ⟨6, 6, 9, 19, 1⟩, ⟨7, 7, 11, 8, 1⟩, ⟨8, 8, 13, 99, 0⟩, ⟨9, 9, 3, 83, 0⟩,
      ⟨10, 10, 5, 14, 0⟩, ⟨11, 11, 17, 100, 0⟩, ⟨12, 12, 19, 31, 0⟩, ⟨13, 13, 19, 31, 0⟩,
      ⟨14, 14, 8, 18, 0⟩, ⟨15, 15, 8, 18, 0⟩, ⟨16, 16, 8, 18, 0⟩, ⟨17, 17, 10, 20, 0⟩,
      ⟨18, 18, 10, 20, 0⟩, ⟨19, 19, 12, 21, 0⟩, ⟨20, 20, 24, 37, 0⟩, ⟨21, 21, 26, 39, 0⟩,
      ⟨22, 22, 28, 25, 0⟩, ⟨23, 23, 14, 101, 1⟩, ⟨24, 24, 31, 102, 1⟩, ⟨25, 25, 18, 85, 1⟩,
      ⟨26, 26, 18, 85, 1⟩, ⟨27, 27, 20, 32, 1⟩, ⟨28, 28, 20, 32, 1⟩, ⟨29, 29, 20, 32, 1⟩,
      ⟨30, 30, 21, 33, 1⟩, ⟨31, 31, 21, 33, 1⟩, ⟨32, 32, 22, 34, 1⟩, ⟨33, 33, 37, 103, 1⟩,
      ⟨34, 34, 39, 49, 1⟩, ⟨35, 35, 39, 49, 1⟩, ⟨36, 36, 25, 38, 1⟩, ⟨37, 37, 25, 38, 1⟩,
      ⟨38, 38, 25, 38, 1⟩, ⟨39, 39, 27, 40, 1⟩, ⟨40, 40, 27, 40, 1⟩, ⟨41, 41, 29, 41, 1⟩,
      ⟨42, 42, 44, 55, 1⟩, ⟨43, 43, 32, 104, 0⟩, ⟨44, 44, 33, 86, 0⟩, ⟨45, 45, 34, 46, 0⟩,
      ⟨46, 46, 49, 105, 0⟩, ⟨47, 47, 38, 87, 0⟩, ⟨48, 48, 38, 87, 0⟩, ⟨49, 49, 40, 50, 0⟩,
      ⟨50, 50, 40, 50, 0⟩, ⟨51, 51, 40, 50, 0⟩, ⟨52, 52, 41, 51, 0⟩, ⟨53, 53, 41, 51, 0⟩,
      ⟨54, 54, 42, 52, 0⟩, ⟨55, 55, 55, 94, 0⟩, ⟨56, 56, 57, 63, 0⟩, ⟨57, 57, 45, 56, 0⟩,
      ⟨58, 58, 50, 106, 1⟩, ⟨59, 59, 51, 88, 1⟩, ⟨60, 60, 52, 60, 1⟩, ⟨61, 61, 63, 107, 1⟩,
      ⟨62, 62, 56, 89, 1⟩, ⟨63, 63, 58, 64, 1⟩, ⟨64, 64, 64, 108, 0⟩]⟩,
    ⟨[.plus (-1), .plus (-1), .plus 1], [1, 1, -1], some [
      ⟨1, 1, 0, 7, 0⟩, ⟨2, 2, 2, 17, 1⟩, ⟨3, 3, 4, 19, 1⟩, ⟨4, 4, 1, 8, 1⟩, ⟨5, 5, 7, 109, 1⟩,
      ⟨6, 6, 9, 24, 1⟩, ⟨7, 7, 11, 26, 1⟩, ⟨8, 8, 13, 31, 0⟩, ⟨9, 9, 3, 18, 0⟩,
      ⟨10, 10, 5, 20, 0⟩, ⟨11, 11, 17, 110, 0⟩, ⟨12, 12, 19, 37, 0⟩, ⟨13, 13, 19, 37, 0⟩,
      ⟨14, 14, 8, 39, 0⟩, ⟨15, 15, 8, 39, 0⟩, ⟨16, 16, 8, 39, 0⟩, ⟨17, 17, 10, 25, 0⟩,
      ⟨18, 18, 10, 25, 0⟩, ⟨19, 19, 12, 27, 0⟩, ⟨20, 20, 24, 111, 0⟩, ⟨21, 21, 26, 91, 0⟩,
      ⟨22, 22, 28, 44, 0⟩, ⟨23, 23, 14, 32, 1⟩, ⟨24, 24, 31, 103, 1⟩, ⟨25, 25, 18, 49, 1⟩,
      ⟨26, 26, 18, 49, 1⟩, ⟨27, 27, 20, 38, 1⟩, ⟨28, 28, 20, 38, 1⟩, ⟨29, 29, 20, 38, 1⟩,
      ⟨30, 30, 21, 40, 1⟩, ⟨31, 31, 21, 40, 1⟩, ⟨32, 32, 22, 41, 1⟩, ⟨33, 33, 37, 112, 1⟩,
      ⟨34, 34, 39, 92, 1⟩, ⟨35, 35, 39, 92, 1⟩, ⟨36, 36, 25, 55, 1⟩, ⟨37, 37, 25, 55, 1⟩,
      ⟨38, 38, 25, 55, 1⟩, ⟨39, 39, 27, 57, 1⟩, ⟨40, 40, 27, 57, 1⟩, ⟨41, 41, 29, 45, 1⟩,
      ⟨42, 42, 44, 113, 1⟩, ⟨43, 43, 32, 87, 0⟩, ⟨44, 44, 33, 50, 0⟩, ⟨45, 45, 34, 51, 0⟩,
      ⟨46, 46, 49, 114, 0⟩, ⟨47, 47, 38, 94, 0⟩, ⟨48, 48, 38, 94, 0⟩, ⟨49, 49, 40, 63, 0⟩,
      ⟨50, 50, 40, 63, 0⟩, ⟨51, 51, 40, 63, 0⟩, ⟨52, 52, 41, 56, 0⟩, ⟨53, 53, 41, 56, 0⟩,
      ⟨54, 54, 42, 58, 0⟩, ⟨55, 55, 55, 115, 0⟩, ⟨56, 56, 57, 95, 0⟩, ⟨57, 57, 45, 76, 0⟩,
      ⟨58, 58, 50, 107, 1⟩, ⟨59, 59, 51, 89, 1⟩, ⟨60, 60, 52, 64, 1⟩, ⟨61, 61, 63, 116, 1⟩,
      ⟨62, 62, 56, 96, 1⟩, ⟨63, 63, 58, 79, 1⟩, ⟨64, 64, 64, 117, 0⟩]⟩]

/-- `recalc_triplet` in `nrg-recalc-QSZTZ.hpp:213-`, 3 channel(s): `qsztz-triplets.dat`, `qsztz-tripletp.dat`, `qsztz-tripletm.dat`. -/
def op_QSZTZ_3ch_triplet : OpTable where
  builtin := ⟨"QSZTZ", 3, fields_QSZTZ, tab_QSZTZ_3ch⟩
  kind := .triplet
  labs := labs_QSZTZ
  targets := [
    ⟨[.plus 0, .plus 0, .plus 0], [0, 3, 0], some [
      ⟨1, 1, 0, 0, 0⟩, ⟨2, 2, 2, 2, 0⟩, ⟨3, 3, 4, 4, 0⟩, ⟨4, 4, 1, 1, 0⟩, ⟨5, 5, 7, 7, 0⟩,
      ⟨6, 6, 9, 9, 0⟩, ⟨7, 7, 11, 11, 0⟩, ⟨8, 8, 13, 13, 0⟩, ⟨9, 9, 3, 3, 0⟩, ⟨10, 10, 5, 5, 0⟩,
      ⟨11, 11, 17, 17, 0⟩, ⟨12, 12, 19, 19, 0⟩, ⟨13, 13, 19, 19, 0⟩, ⟨14, 14, 8, 8, 0⟩,
      ⟨15, 15, 8, 8, 0⟩, ⟨16, 16, 8, 8, 0⟩, ⟨17, 17, 10, 10, 0⟩, ⟨18, 18, 10, 10, 0⟩,
      ⟨19, 19, 12, 12, 0⟩, ⟨20, 20, 24, 24, 0⟩, ⟨21, 21, 26, 26, 0⟩, ⟨22, 22, 28, 28, 0⟩,
      ⟨23, 23, 14, 14, 0⟩, ⟨24, 24, 31, 31, 0⟩, ⟨25, 25, 18, 18, 0⟩, ⟨26, 26, 18, 18, 0⟩,
      ⟨27, 27, 20, 20, 0⟩, ⟨28, 28, 20, 20, 0⟩, ⟨29, 29, 20, 20, 0⟩, ⟨30, 30, 21, 21, 0⟩,
      ⟨31, 31, 21, 21, 0⟩, ⟨32, 32, 22, 22, 0⟩, ⟨33, 33, 37, 37, 0⟩, ⟨34, 34, 39, 39, 0⟩,
      ⟨35, 35, 39, 39, 0⟩, ⟨36, 36, 25, 25, 0⟩, ⟨37, 37, 25, 25, 0⟩, ⟨38, 38, 25, 25, 0⟩,
      ⟨39, 39, 27, 27, 0⟩, ⟨40, 40, 27, 27, 0⟩, ⟨41, 41, 29, 29, 0⟩, ⟨42, 42, 44, 44, 0⟩,
      ⟨43, 43, 32, 32, 0⟩, ⟨44, 44, 33, 33, 0⟩, ⟨45, 45, 34, 34, 0⟩, ⟨46, 46, 49, 49, 0⟩,
      ⟨47, 47, 38, 38, 0⟩, ⟨48, 48, 38, 38, 0⟩, ⟨49, 49, 40, 40, 0⟩, ⟨50, 50, 40, 40, 0⟩,
      ⟨51, 51, 40, 40, 0⟩, ⟨52, 52, 41, 41, 0⟩, ⟨53, 53, 41, 41, 0⟩, ⟨54, 54, 42, 42, 0⟩,
      ⟨55, 55, 55, 55, 0⟩, ⟨56, 56, 57, 57, 0⟩, ⟨57, 57, 45, 45, 0⟩, ⟨58, 58, 50, 50, 0⟩,
      ⟨59, 59, 51, 51, 0⟩, ⟨60, 60, 52, 52, 0⟩, ⟨61, 61, 63, 63, 0⟩, ⟨62, 62, 56, 56, 0⟩,
      ⟨63, 63, 58, 58, 0⟩, ⟨64, 64, 64, 64, 0⟩]⟩,
    ⟨[.plus 0, .plus 2, .plus 0], [0, 3, 0], some [
      ⟨1, 1, 0, 118, 0⟩, ⟨2, 2, 2, 119, 0⟩, ⟨3, 3, 4, 120, 0⟩, ⟨4, 4, 1, 121, 0⟩,
      ⟨5, 5, 7, 2, 0⟩, ⟨6, 6, 9, 4, 0⟩, ⟨7, 7, 11, 1, 0⟩, ⟨8, 8, 13, 122, 0⟩, ⟨9, 9, 3, 123, 0⟩,
      ⟨10, 10, 5, 124, 0⟩, ⟨11, 11, 17, 98, 0⟩, ⟨12, 12, 19, 13, 0⟩, ⟨13, 13, 19, 13, 0⟩,
      ⟨14, 14, 8, 3, 0⟩, ⟨15, 15, 8, 3, 0⟩, ⟨16, 16, 8, 3, 0⟩, ⟨17, 17, 10, 5, 0⟩,
      ⟨18, 18, 10, 5, 0⟩, ⟨19, 19, 12, 6, 0⟩, ⟨20, 20, 24, 19, 0⟩, ⟨21, 21, 26, 8, 0⟩,
      ⟨22, 22, 28, 10, 0⟩, ⟨23, 23, 14, 125, 0⟩, ⟨24, 24, 31, 99, 0⟩, ⟨25, 25, 18, 83, 0⟩,
      ⟨26, 26, 18, 83, 0⟩, ⟨27, 27, 20, 14, 0⟩, ⟨28, 28, 20, 14, 0⟩, ⟨29, 29, 20, 14, 0⟩,
      ⟨30, 30, 21, 15, 0⟩, ⟨31, 31, 21, 15, 0⟩, ⟨32, 32, 22, 16, 0⟩, ⟨33, 33, 37, 31, 0⟩,
      ⟨34, 34, 39, 18, 0⟩, ⟨35, 35, 39, 18, 0⟩, ⟨36, 36, 25, 20, 0⟩, ⟨37, 37, 25, 20, 0⟩,
      ⟨38, 38, 25, 20, 0⟩, ⟨39, 39, 27, 21, 0⟩, ⟨40, 40, 27, 21, 0⟩, ⟨41, 41, 29, 22, 0⟩,
      ⟨42, 42, 44, 25, 0⟩, ⟨43, 43, 32, 101, 0⟩, ⟨44, 44, 33, 84, 0⟩, ⟨45, 45, 34, 30, 0⟩,
      ⟨46, 46, 49, 85, 0⟩, ⟨47, 47, 38, 32, 0⟩, ⟨48, 48, 38, 32, 0⟩, ⟨49, 49, 40, 33, 0⟩,
      ⟨50, 50, 40, 33, 0⟩, ⟨51, 51, 40, 33, 0⟩, ⟨52, 52, 41, 34, 0⟩, ⟨53, 53, 41, 34, 0⟩,
      ⟨54, 54, 42, 35, 0⟩, ⟨55, 55, 55, 38, 0⟩, ⟨56, 56, 57, 40, 0⟩, ⟨57, 57, 45, 41, 0⟩,
      ⟨58, 58, 50, 86, 0⟩, ⟨59, 59, 51, 46, 0⟩, ⟨60, 60, 52, 47, 0⟩, ⟨61, 61, 63, 50, 0⟩,
      ⟨62, 62, 56, 51, 0⟩, ⟨63, 63, 58, 52, 0⟩, ⟨64, 64, 64, 60, 0⟩]⟩,
    ⟨[.plus 0, .plus (-2), .plus 0], [0, 3, 0], some [
      ⟨1, 1, 0, 126, 0⟩, ⟨2, 2, 2, 7, 0⟩, ⟨3, 3, 4, 9, 0⟩, ⟨4, 4, 1, 11, 0⟩, ⟨5, 5, 7, 127, 0⟩,
      ⟨6, 6, 9, 128, 0⟩, ⟨7, 7, 11, 129, 0⟩, ⟨8, 8, 13, 19, 0⟩, ⟨9, 9, 3, 8, 0⟩,
      ⟨10, 10, 5, 10, 0⟩, ⟨11, 11, 17, 109, 0⟩, ⟨12, 12, 19, 24, 0⟩, ⟨13, 13, 19, 24, 0⟩,
      ⟨14, 14, 8, 26, 0⟩, ⟨15, 15, 8, 26, 0⟩, ⟨16, 16, 8, 26, 0⟩, ⟨17, 17, 10, 28, 0⟩,
      ⟨18, 18, 10, 28, 0⟩, ⟨19, 19, 12, 68, 0⟩, ⟨20, 20, 24, 130, 0⟩, ⟨21, 21, 26, 131, 0⟩,
      ⟨22, 22, 28, 132, 0⟩, ⟨23, 23, 14, 20, 0⟩, ⟨24, 24, 31, 37, 0⟩, ⟨25, 25, 18, 39, 0⟩,
      ⟨26, 26, 18, 39, 0⟩, ⟨27, 27, 20, 25, 0⟩, ⟨28, 28, 20, 25, 0⟩, ⟨29, 29, 20, 25, 0⟩,
      ⟨30, 30, 21, 27, 0⟩, ⟨31, 31, 21, 27, 0⟩, ⟨32, 32, 22, 29, 0⟩, ⟨33, 33, 37, 111, 0⟩,
      ⟨34, 34, 39, 91, 0⟩, ⟨35, 35, 39, 91, 0⟩, ⟨36, 36, 25, 44, 0⟩, ⟨37, 37, 25, 44, 0⟩,
      ⟨38, 38, 25, 44, 0⟩, ⟨39, 39, 27, 70, 0⟩, ⟨40, 40, 27, 70, 0⟩, ⟨41, 41, 29, 71, 0⟩,
      ⟨42, 42, 44, 133, 0⟩, ⟨43, 43, 32, 38, 0⟩, ⟨44, 44, 33, 40, 0⟩, ⟨45, 45, 34, 41, 0⟩,
      ⟨46, 46, 49, 92, 0⟩, ⟨47, 47, 38, 55, 0⟩, ⟨48, 48, 38, 55, 0⟩, ⟨49, 49, 40, 57, 0⟩,
      ⟨50, 50, 40, 57, 0⟩, ⟨51, 51, 40, 57, 0⟩, ⟨52, 52, 41, 45, 0⟩, ⟨53, 53, 41, 45, 0⟩,
      ⟨54, 54, 42, 72, 0⟩, ⟨55, 55, 55, 113, 0⟩, ⟨56, 56, 57, 93, 0⟩, ⟨57, 57, 45, 74, 0⟩,
      ⟨58, 58, 50, 63, 0⟩, ⟨59, 59, 51, 56, 0⟩, ⟨60, 60, 52, 58, 0⟩, ⟨61, 61, 63, 95, 0⟩,
      ⟨62, 62, 56, 76, 0⟩, ⟨63, 63, 58, 77, 0⟩, ⟨64, 64, 64, 79, 0⟩]⟩]

/-- The label expressions in the operator tables of `SL`. -/
def labs_SL : List LabelExpr := [
  [.plus 1],
  [.plus 0],
  [.plus (-1)],
  [.plus 2],
  [.plus 3]]

/-- `recalc_doublet` in `nrg-recalc-SL.hpp:32-`, 1 channel(s): `sl-1ch-doublet.dat`. -/
def op_SL_1ch_doublet : OpTable where
  builtin := ⟨"SL", 1, fields_SL, tab_SL_1ch⟩
  kind := .doublet
  labs := labs_SL
  targets := [
    ⟨[.plus (-1)], [1], some [
      ⟨1, 1, 0, 1, 0⟩, ⟨2, 2, 1, 2, 1⟩]⟩]

/-- `recalc_doublet` in `nrg-recalc-SL.hpp:32-`, 2 channel(s): `sl-2ch-doublet.dat`. -/
def op_SL_2ch_doublet : OpTable where
  builtin := ⟨"SL", 2, fields_SL, tab_SL_2ch⟩
  kind := .doublet
  labs := labs_SL
  targets := [
    ⟨[.plus (-1)], [1], some [
      ⟨1, 1, 3, 0, 0⟩, ⟨2, 2, 0, 1, 1⟩, ⟨3, 3, 0, 1, 1⟩, ⟨4, 4, 1, 2, 0⟩]⟩]

/-- `recalc_doublet` in `nrg-recalc-SL.hpp:32-`, 3 channel(s): `sl-3ch-doublet.dat`. -/
def op_SL_3ch_doublet : OpTable where
  builtin := ⟨"SL", 3, fields_SL, tab_SL_3ch⟩
  kind := .doublet
  labs := labs_SL
  targets := [
    ⟨[.plus (-1)], [1], some [
      ⟨1, 1, 4, 3, 0⟩, ⟨2, 2, 3, 0, 1⟩, ⟨3, 3, 3, 0, 1⟩, ⟨4, 4, 3, 0, 1⟩, ⟨5, 5, 0, 1, 0⟩,
      ⟨6, 6, 0, 1, 0⟩, ⟨7, 7, 0, 1, 0⟩, ⟨8, 8, 1, 2, 1⟩]⟩]

/-- The label expressions in the operator tables of `SL3`. -/
def labs_SL3 : List LabelExpr := [
  [.plus 1, .plus 1, .plus 1],
  [.plus 0, .plus 1, .plus 1],
  [.plus 1, .plus 1, .plus 0],
  [.plus 0, .plus 1, .plus 0],
  [.plus 1, .plus 0, .plus 1],
  [.plus 0, .plus 0, .plus 1],
  [.plus 1, .plus 0, .plus 0],
  [.plus 0, .plus 0, .plus 0],
  [.plus (-1), .plus 1, .plus 1],
  [.plus (-1), .plus 1, .plus 0],
  [.plus (-1), .plus 0, .plus 1],
  [.plus (-1), .plus 0, .plus 0]]

/-- `recalc_doublet` in `nrg-recalc-SL3.hpp:32-`, 3 channel(s): `sl3-3ch-doublet.dat`. -/
def op_SL3_3ch_doublet : OpTable where
  builtin := ⟨"SL3", 3, fields_SL3, tab_SL3_3ch⟩
  kind := .doublet
  labs := labs_SL3
  targets := [
    ⟨[.plus (-1), .plus 0, .plus 0], [1, 0, 0], some [
      ⟨1, 1, 0, 1, 0⟩, ⟨2, 2, 2, 3, 1⟩, ⟨3, 3, 4, 5, 1⟩, ⟨4, 4, 6, 7, 0⟩, ⟨5, 5, 1, 8, 1⟩,
      ⟨6, 6, 3, 9, 0⟩, ⟨7, 7, 5, 10, 0⟩, ⟨8, 8, 7, 11, 1⟩]⟩]

/-- The label expressions in the operator tables of `SPSU2`. -/
def labs_SPSU2 : List LabelExpr := [
  [.plus 0],
  [.plus 1],
  [.plus (-1)],
  [.plus 2],
  [.plus (-2)],
  [.plus 3],
  [.plus (-3)],
  [.plus 4],
  [.plus (-4)],
  [.plus 5]]

/-- `recalc_doublet` in `nrg-recalc-SPSU2.hpp:32-`, 1 channel(s): `spsu2-1ch-doubletp.dat`, `spsu2-1ch-doubletm.dat`. -/
def op_SPSU2_1ch_doublet : OpTable where
  builtin := ⟨"SPSU2", 1, fields_SPSU2, tab_SPSU2_1ch⟩
  kind := .doublet
  labs := labs_SPSU2
  targets := [
    ⟨[.plus 1], [2], some [
      ⟨1, 1, 0, 1, 0⟩, ⟨2, 2, 0, 1, 0⟩, ⟨3, 3, 2, 0, 1⟩, ⟨4, 3, 1, 0, 2⟩, ⟨4, 4, 1, 3, 3⟩]⟩,
    ⟨[.plus (-1)], [2], some [
      ⟨1, 1, 0, 2, 0⟩, ⟨2, 2, 0, 2, 0⟩, ⟨3, 3, 2, 4, 3⟩, ⟨3, 4, 2, 0, 4⟩, ⟨4, 4, 1, 0, 1⟩]⟩]

/-- `recalc_doublet` in `nrg-recalc-SPSU2.hpp:32-`, 2 channel(s): `spsu2-2ch-doubletp.dat`, `spsu2-2ch-doubletm.dat`. -/
def op_SPSU2_2ch_doublet : OpTable where
  builtin := ⟨"SPSU2", 2, fields_SPSU2, tab_SPSU2_2ch⟩
  kind := .doublet
  labs := labs_SPSU2
  targets := [
    ⟨[.plus 1], [2], some [
      ⟨1, 1, 0, 1, 0⟩, ⟨2, 2, 0, 1, 0⟩, ⟨3, 3, 0, 1, 0⟩, ⟨4, 4, 0, 1, 0⟩, ⟨5, 5, 0, 1, 0⟩,
      ⟨6, 6, 2, 0, 1⟩, ⟨7, 6, 1, 0, 2⟩, ⟨7, 7, 1, 3, 3⟩, ⟨8, 8, 2, 0, 1⟩, ⟨9, 8, 1, 0, 2⟩,
      ⟨9, 9, 1, 3, 3⟩, ⟨10, 10, 2, 0, 1⟩, ⟨11, 10, 1, 0, 2⟩, ⟨11, 11, 1, 3, 3⟩,
      ⟨12, 12, 2, 0, 1⟩, ⟨13, 12, 1, 0, 2⟩, ⟨13, 13, 1, 3, 3⟩, ⟨14, 14, 4, 2, 5⟩,
      ⟨15, 14, 0, 2, 6⟩, ⟨15, 15, 0, 1, 7⟩, ⟨16, 15, 3, 1, 8⟩, ⟨16, 16, 3, 5, 0⟩]⟩,
    ⟨[.plus (-1)], [2], some [
      ⟨1, 1, 0, 2, 0⟩, ⟨2, 2, 0, 2, 0⟩, ⟨3, 3, 0, 2, 0⟩, ⟨4, 4, 0, 2, 0⟩, ⟨5, 5, 0, 2, 0⟩,
      ⟨6, 6, 2, 4, 3⟩, ⟨6, 7, 2, 0, 4⟩, ⟨7, 7, 1, 0, 1⟩, ⟨8, 8, 2, 4, 3⟩, ⟨8, 9, 2, 0, 4⟩,
      ⟨9, 9, 1, 0, 1⟩, ⟨10, 10, 2, 4, 3⟩, ⟨10, 11, 2, 0, 4⟩, ⟨11, 11, 1, 0, 1⟩,
      ⟨12, 12, 2, 4, 3⟩, ⟨12, 13, 2, 0, 4⟩, ⟨13, 13, 1, 0, 1⟩, ⟨14, 14, 4, 6, 0⟩,
      ⟨14, 15, 4, 2, 9⟩, ⟨15, 15, 0, 2, 10⟩, ⟨15, 16, 0, 1, 11⟩, ⟨16, 16, 3, 1, 12⟩]⟩]

/-- `recalc_doublet` in `nrg-recalc-SPSU2.hpp:32-`, 3 channel(s): `spsu2-3ch-doubletp.dat`, `spsu2-3ch-doubletm.dat`. -/
def op_SPSU2_3ch_doublet : OpTable where
  builtin := ⟨"SPSU2", 3, fields_SPSU2, tab_SPSU2_3ch⟩
  kind := .doublet
  labs := labs_SPSU2
  targets := [
    ⟨[.plus 1], [2], some [
      ⟨1, 1, 0, 1, 0⟩, ⟨2, 2, 0, 1, 0⟩, ⟨3, 3, 0, 1, 0⟩, ⟨4, 4, 0, 1, 0⟩, ⟨5, 5, 0, 1, 0⟩,
      ⟨6, 6, 0, 1, 0⟩, ⟨7, 7, 0, 1, 0⟩, ⟨8, 8, 0, 1, 0⟩, ⟨9, 9, 0, 1, 0⟩, ⟨10, 10, 0, 1, 0⟩,
      ⟨11, 11, 0, 1, 0⟩, ⟨12, 12, 0, 1, 0⟩, ⟨13, 13, 0, 1, 0⟩, ⟨14, 14, 0, 1, 0⟩,
      ⟨15, 15, 2, 0, 1⟩, ⟨16, 15, 1, 0, 2⟩, ⟨16, 16, 1, 3, 3⟩, ⟨17, 17, 2, 0, 1⟩,
      ⟨18, 17, 1, 0, 2⟩, ⟨18, 18, 1, 3, 3⟩, ⟨19, 19, 2, 0, 1⟩, ⟨20, 19, 1, 0, 2⟩,
      ⟨20, 20, 1, 3, 3⟩, ⟨21, 21, 2, 0, 1⟩, ⟨22, 21, 1, 0, 2⟩, ⟨22, 22, 1, 3, 3⟩,
      ⟨23, 23, 2, 0, 1⟩, ⟨24, 23, 1, 0, 2⟩, ⟨24, 24, 1, 3, 3⟩, ⟨25, 25, 2, 0, 1⟩,
      ⟨26, 25, 1, 0, 2⟩, ⟨26, 26, 1, 3, 3⟩, ⟨27, 27, 2, 0, 1⟩, ⟨28, 27, 1, 0, 2⟩,
      ⟨28, 28, 1, 3, 3⟩, ⟨29, 29, 2, 0, 1⟩, ⟨30, 29, 1, 0, 2⟩, ⟨30, 30, 1, 3, 3⟩,
      ⟨31, 31, 2, 0, 1⟩, ⟨32, 31, 1, 0, 2⟩, ⟨32, 32, 1, 3, 3⟩, ⟨33, 33, 2, 0, 1⟩,
      ⟨34, 33, 1, 0, 2⟩, ⟨34, 34, 1, 3, 3⟩, ⟨35, 35, 2, 0, 1⟩, ⟨36, 35, 1, 0, 2⟩,
      ⟨36, 36, 1, 3, 3⟩, ⟨37, 37, 2, 0, 1⟩, ⟨38, 37, 1, 0, 2⟩, ⟨38, 38, 1, 3, 3⟩,
      ⟨39, 39, 2, 0, 1⟩, ⟨40, 39, 1, 0, 2⟩, ⟨40, 40, 1, 3, 3⟩, ⟨41, 41, 2, 0, 1⟩,
      ⟨42, 41, 1, 0, 2⟩, ⟨42, 42, 1, 3, 3⟩, ⟨43, 43, 4, 2, 5⟩, ⟨44, 43, 0, 2, 6⟩,
      ⟨44, 44, 0, 1, 7⟩, ⟨45, 44, 3, 1, 8⟩, ⟨45, 45, 3, 5, 0⟩, ⟨46, 46, 4, 2, 5⟩,
      ⟨47, 46, 0, 2, 6⟩, ⟨47, 47, 0, 1, 7⟩, ⟨48, 47, 3, 1, 8⟩, ⟨48, 48, 3, 5, 0⟩,
      ⟨49, 49, 4, 2, 5⟩, ⟨50, 49, 0, 2, 6⟩, ⟨50, 50, 0, 1, 7⟩, ⟨51, 50, 3, 1, 8⟩,
      ⟨51, 51, 3, 5, 0⟩, ⟨52, 52, 4, 2, 5⟩, ⟨53, 52, 0, 2, 6⟩, ⟨53, 53, 0, 1, 7⟩,
      ⟨54, 53, 3, 1, 8⟩, ⟨54, 54, 3, 5, 0⟩, ⟨55, 55, 4, 2, 5⟩, ⟨56, 55, 0, 2, 6⟩,
      ⟨56, 56, 0, 1, 7⟩, ⟨57, 56, 3, 1, 8⟩, ⟨57, 57, 3, 5, 0⟩, ⟨58, 58, 4, 2, 5⟩,
      ⟨59, 58, 0, 2, 6⟩, ⟨59, 59, 0, 1, 7⟩, ⟨60, 59, 3, 1, 8⟩, ⟨60, 60, 3, 5, 0⟩,
      ⟨61, 61, 6, 4, 13⟩, ⟨62, 61, 2, 4, 14⟩, ⟨62, 62, 2, 0, 15⟩, ⟨63, 62, 1, 0, 16⟩,
      ⟨63, 63, 1, 3, 17⟩, ⟨64, 63, 5, 3, 18⟩, ⟨64, 64, 5, 7, 3⟩]⟩,
    ⟨[.plus (-1)], [2], some [
      ⟨1, 1, 0, 2, 0⟩, ⟨2, 2, 0, 2, 0⟩, ⟨3, 3, 0, 2, 0⟩, ⟨4, 4, 0, 2, 0⟩, ⟨5, 5, 0, 2, 0⟩,
      ⟨6, 6, 0, 2, 0⟩, ⟨7, 7, 0, 2, 0⟩, ⟨8, 8, 0, 2, 0⟩, ⟨9, 9, 0, 2, 0⟩, ⟨10, 10, 0, 2, 0⟩,
      ⟨11, 11, 0, 2, 0⟩, ⟨12, 12, 0, 2, 0⟩, ⟨13, 13, 0, 2, 0⟩, ⟨14, 14, 0, 2, 0⟩,
      ⟨15, 15, 2, 4, 3⟩, ⟨15, 16, 2, 0, 4⟩, ⟨16, 16, 1, 0, 1⟩, ⟨17, 17, 2, 4, 3⟩,
      ⟨17, 18, 2, 0, 4⟩, ⟨18, 18, 1, 0, 1⟩, ⟨19, 19, 2, 4, 3⟩, ⟨19, 20, 2, 0, 4⟩,
      ⟨20, 20, 1, 0, 1⟩, ⟨21, 21, 2, 4, 3⟩, ⟨21, 22, 2, 0, 4⟩, ⟨22, 22, 1, 0, 1⟩,
      ⟨23, 23, 2, 4, 3⟩, ⟨23, 24, 2, 0, 4⟩, ⟨24, 24, 1, 0, 1⟩, ⟨25, 25, 2, 4, 3⟩,
      ⟨25, 26, 2, 0, 4⟩, ⟨26, 26, 1, 0, 1⟩, ⟨27, 27, 2, 4, 3⟩, ⟨27, 28, 2, 0, 4⟩,
      ⟨28, 28, 1, 0, 1⟩, ⟨29, 29, 2, 4, 3⟩, ⟨29, 30, 2, 0, 4⟩, ⟨30, 30, 1, 0, 1⟩,
      ⟨31, 31, 2, 4, 3⟩, ⟨31, 32, 2, 0, 4⟩, ⟨32, 32, 1, 0, 1⟩, ⟨33, 33, 2, 4, 3⟩,
      ⟨33, 34, 2, 0, 4⟩, ⟨34, 34, 1, 0, 1⟩, ⟨35, 35, 2, 4, 3⟩, ⟨35, 36, 2, 0, 4⟩,
      ⟨36, 36, 1, 0, 1⟩, ⟨37, 37, 2, 4, 3⟩, ⟨37, 38, 2, 0, 4⟩, ⟨38, 38, 1, 0, 1⟩,
      ⟨39, 39, 2, 4, 3⟩, ⟨39, 40, 2, 0, 4⟩, ⟨40, 40, 1, 0, 1⟩, ⟨41, 41, 2, 4, 3⟩,
      ⟨41, 42, 2, 0, 4⟩, ⟨42, 42, 1, 0, 1⟩, ⟨43, 43, 4, 6, 0⟩, ⟨43, 44, 4, 2, 9⟩,
      ⟨44, 44, 0, 2, 10⟩, ⟨44, 45, 0, 1, 11⟩, ⟨45, 45, 3, 1, 12⟩, ⟨46, 46, 4, 6, 0⟩,
      ⟨46, 47, 4, 2, 9⟩, ⟨47, 47, 0, 2, 10⟩, ⟨47, 48, 0, 1, 11⟩, ⟨48, 48, 3, 1, 12⟩,
      ⟨49, 49, 4, 6, 0⟩, ⟨49, 50, 4, 2, 9⟩, ⟨50, 50, 0, 2, 10⟩, ⟨50, 51, 0, 1, 11⟩,
      ⟨51, 51, 3, 1, 12⟩, ⟨52, 52, 4, 6, 0⟩, ⟨52, 53, 4, 2, 9⟩, ⟨53, 53, 0, 2, 10⟩,
      ⟨53, 54, 0, 1, 11⟩, ⟨54, 54, 3, 1, 12⟩, ⟨55, 55, 4, 6, 0⟩, ⟨55, 56, 4, 2, 9⟩,
      ⟨56, 56, 0, 2, 10⟩, ⟨56, 57, 0, 1, 11⟩, ⟨57, 57, 3, 1, 12⟩, ⟨58, 58, 4, 6, 0⟩,
      ⟨58, 59, 4, 2, 9⟩, ⟨59, 59, 0, 2, 10⟩, ⟨59, 60, 0, 1, 11⟩, ⟨60, 60, 3, 1, 12⟩,
      ⟨61, 61, 6, 8, 3⟩, ⟨61, 62, 6, 4, 19⟩, ⟨62, 62, 2, 4, 20⟩, ⟨62, 63, 2, 0, 21⟩,
      ⟨63, 63, 1, 0, 15⟩, ⟨63, 64, 1, 3, 22⟩, ⟨64, 64, 5, 3, 23⟩]⟩]

/-- `recalc_triplet` in `nrg-recalc-SPSU2.hpp:331-`, 1 channel(s): `spsu2-1ch-triplets.dat`, `spsu2-1ch-tripletp.dat`, `spsu2-1ch-tripletm.dat`. -/
def op_SPSU2_1ch_triplet : OpTable where
  builtin := ⟨"SPSU2", 1, fields_SPSU2, tab_SPSU2_1ch⟩
  kind := .triplet
  labs := labs_SPSU2
  targets := [
    ⟨[.plus 0], [3], some [
      ⟨1, 1, 0, 0, 0⟩, ⟨2, 2, 0, 0, 0⟩, ⟨3, 3, 2, 2, 5⟩, ⟨3, 4, 2, 1, 11⟩, ⟨4, 3, 1, 2, 6⟩,
      ⟨4, 4, 1, 1, 24⟩]⟩,
    ⟨[.plus 2], [3], some [
      ⟨1, 1, 0, 3, 0⟩, ⟨2, 2, 0, 3, 0⟩, ⟨3, 3, 2, 1, 25⟩, ⟨4, 3, 1, 1, 26⟩, ⟨4, 4, 1, 5, 0⟩]⟩,
    ⟨[.plus (-2)], [3], some [
      ⟨1, 1, 0, 4, 0⟩, ⟨2, 2, 0, 4, 0⟩, ⟨3, 3, 2, 6, 0⟩, ⟨3, 4, 2, 2, 9⟩, ⟨4, 4, 1, 2, 27⟩]⟩]

/-- `recalc_triplet` in `nrg-recalc-SPSU2.hpp:331-`, 2 channel(s): `spsu2-2ch-triplets.dat`, `spsu2-2ch-tripletp.dat`, `spsu2-2ch-tripletm.dat`. -/
def op_SPSU2_2ch_triplet : OpTable where
  builtin := ⟨"SPSU2", 2, fields_SPSU2, tab_SPSU2_2ch⟩
  kind := .triplet
  labs := labs_SPSU2
  targets := [
    ⟨[.plus 0], [3], some [
      ⟨1, 1, 0, 0, 0⟩, ⟨2, 2, 0, 0, 0⟩, ⟨3, 3, 0, 0, 0⟩, ⟨4, 4, 0, 0, 0⟩, ⟨5, 5, 0, 0, 0⟩,
      ⟨6, 6, 2, 2, 5⟩, ⟨6, 7, 2, 1, 11⟩, ⟨7, 6, 1, 2, 6⟩, ⟨7, 7, 1, 1, 24⟩, ⟨8, 8, 2, 2, 5⟩,
      ⟨8, 9, 2, 1, 11⟩, ⟨9, 8, 1, 2, 6⟩, ⟨9, 9, 1, 1, 24⟩, ⟨10, 10, 2, 2, 5⟩, ⟨10, 11, 2, 1, 11⟩,
      ⟨11, 10, 1, 2, 6⟩, ⟨11, 11, 1, 1, 24⟩, ⟨12, 12, 2, 2, 5⟩, ⟨12, 13, 2, 1, 11⟩,
      ⟨13, 12, 1, 2, 6⟩, ⟨13, 13, 1, 1, 24⟩, ⟨14, 14, 4, 4, 28⟩, ⟨14, 15, 4, 0, 29⟩,
      ⟨15, 14, 0, 4, 30⟩, ⟨15, 15, 0, 0, 31⟩, ⟨15, 16, 0, 3, 32⟩, ⟨16, 15, 3, 0, 33⟩,
      ⟨16, 16, 3, 3, 34⟩]⟩,
    ⟨[.plus 2], [3], some [
      ⟨1, 1, 0, 3, 0⟩, ⟨2, 2, 0, 3, 0⟩, ⟨3, 3, 0, 3, 0⟩, ⟨4, 4, 0, 3, 0⟩, ⟨5, 5, 0, 3, 0⟩,
      ⟨6, 6, 2, 1, 25⟩, ⟨7, 6, 1, 1, 26⟩, ⟨7, 7, 1, 5, 0⟩, ⟨8, 8, 2, 1, 25⟩, ⟨9, 8, 1, 1, 26⟩,
      ⟨9, 9, 1, 5, 0⟩, ⟨10, 10, 2, 1, 25⟩, ⟨11, 10, 1, 1, 26⟩, ⟨11, 11, 1, 5, 0⟩,
      ⟨12, 12, 2, 1, 25⟩, ⟨13, 12, 1, 1, 26⟩, ⟨13, 13, 1, 5, 0⟩, ⟨14, 14, 4, 0, 35⟩,
      ⟨15, 14, 0, 0, 36⟩, ⟨15, 15, 0, 3, 34⟩, ⟨16, 14, 3, 0, 37⟩, ⟨16, 15, 3, 3, 38⟩,
      ⟨16, 16, 3, 7, 0⟩]⟩,
    ⟨[.plus (-2)], [3], some [
      ⟨1, 1, 0, 4, 0⟩, ⟨2, 2, 0, 4, 0⟩, ⟨3, 3, 0, 4, 0⟩, ⟨4, 4, 0, 4, 0⟩, ⟨5, 5, 0, 4, 0⟩,
      ⟨6, 6, 2, 6, 0⟩, ⟨6, 7, 2, 2, 9⟩, ⟨7, 7, 1, 2, 27⟩, ⟨8, 8, 2, 6, 0⟩, ⟨8, 9, 2, 2, 9⟩,
      ⟨9, 9, 1, 2, 27⟩, ⟨10, 10, 2, 6, 0⟩, ⟨10, 11, 2, 2, 9⟩, ⟨11, 11, 1, 2, 27⟩,
      ⟨12, 12, 2, 6, 0⟩, ⟨12, 13, 2, 2, 9⟩, ⟨13, 13, 1, 2, 27⟩, ⟨14, 14, 4, 8, 0⟩,
      ⟨14, 15, 4, 4, 39⟩, ⟨14, 16, 4, 0, 40⟩, ⟨15, 15, 0, 4, 28⟩, ⟨15, 16, 0, 0, 29⟩,
      ⟨16, 16, 3, 0, 35⟩]⟩]

/-- `recalc_triplet` in `nrg-recalc-SPSU2.hpp:331-`, 3 channel(s): `spsu2-3ch-triplets.dat`, `spsu2-3ch-tripletp.dat`. -/
def op_SPSU2_3ch_triplet : OpTable where
  builtin := ⟨"SPSU2", 3, fields_SPSU2, tab_SPSU2_3ch⟩
  kind := .triplet
  labs := labs_SPSU2
  targets := [
    ⟨[.plus 0], [3], some [
      ⟨1, 1, 0, 0, 0⟩, ⟨2, 2, 0, 0, 0⟩, ⟨3, 3, 0, 0, 0⟩, ⟨4, 4, 0, 0, 0⟩, ⟨5, 5, 0, 0, 0⟩,
      ⟨6, 6, 0, 0, 0⟩, ⟨7, 7, 0, 0, 0⟩, ⟨8, 8, 0, 0, 0⟩, ⟨9, 9, 0, 0, 0⟩, ⟨10, 10, 0, 0, 0⟩,
      ⟨11, 11, 0, 0, 0⟩, ⟨12, 12, 0, 0, 0⟩, ⟨13, 13, 0, 0, 0⟩, ⟨14, 14, 0, 0, 0⟩,
      ⟨15, 15, 2, 2, 5⟩, ⟨15, 16, 2, 1, 11⟩, ⟨16, 15, 1, 2, 6⟩, ⟨16, 16, 1, 1, 24⟩,
      ⟨17, 17, 2, 2, 5⟩, ⟨17, 18, 2, 1, 11⟩, ⟨18, 17, 1, 2, 6⟩, ⟨18, 18, 1, 1, 24⟩,
      ⟨19, 19, 2, 2, 5⟩, ⟨19, 20, 2, 1, 11⟩, ⟨20, 19, 1, 2, 6⟩, ⟨20, 20, 1, 1, 24⟩,
      ⟨21, 21, 2, 2, 5⟩, ⟨21, 22, 2, 1, 11⟩, ⟨22, 21, 1, 2, 6⟩, ⟨22, 22, 1, 1, 24⟩,
      ⟨23, 23, 2, 2, 5⟩, ⟨23, 24, 2, 1, 11⟩, ⟨24, 23, 1, 2, 6⟩, ⟨24, 24, 1, 1, 24⟩,
      ⟨25, 25, 2, 2, 5⟩, ⟨25, 26, 2, 1, 11⟩, ⟨26, 25, 1, 2, 6⟩, ⟨26, 26, 1, 1, 24⟩,
      ⟨27, 27, 2, 2, 5⟩, ⟨27, 28, 2, 1, 11⟩, ⟨28, 27, 1, 2, 6⟩, ⟨28, 28, 1, 1, 24⟩,
      ⟨29, 29, 2, 2, 5⟩, ⟨29, 30, 2, 1, 11⟩, ⟨30, 29, 1, 2, 6⟩, ⟨30, 30, 1, 1, 24⟩,
      ⟨31, 31, 2, 2, 5⟩, ⟨31, 32, 2, 1, 11⟩, ⟨32, 31, 1, 2, 6⟩, ⟨32, 32, 1, 1, 24⟩,
      ⟨33, 33, 2, 2, 5⟩, ⟨33, 34, 2, 1, 11⟩, ⟨34, 33, 1, 2, 6⟩, ⟨34, 34, 1, 1, 24⟩,
      ⟨35, 35, 2, 2, 5⟩, ⟨35, 36, 2, 1, 11⟩, ⟨36, 35, 1, 2, 6⟩, ⟨36, 36, 1, 1, 24⟩,
      ⟨37, 37, 2, 2, 5⟩, ⟨37, 38, 2, 1, 11⟩, ⟨38, 37, 1, 2, 6⟩, ⟨38, 38, 1, 1, 24⟩,
      ⟨39, 39, 2, 2, 5⟩, ⟨39, 40, 2, 1, 11⟩, ⟨40, 39, 1, 2, 6⟩, ⟨40, 40, 1, 1, 24⟩,
      ⟨41, 41, 2, 2, 5⟩, ⟨41, 42, 2, 1, 11⟩, ⟨42, 41, 1, 2, 6⟩, ⟨42, 42, 1, 1, 24⟩,
      ⟨43, 43, 4, 4, 28⟩, ⟨43, 44, 4, 0, 29⟩, ⟨44, 43, 0, 4, 30⟩, ⟨44, 44, 0, 0, 31⟩,
      ⟨44, 45, 0, 3, 32⟩, ⟨45, 44, 3, 0, 33⟩, ⟨45, 45, 3, 3, 34⟩, ⟨46, 46, 4, 4, 28⟩,
      ⟨46, 47, 4, 0, 29⟩, ⟨47, 46, 0, 4, 30⟩, ⟨47, 47, 0, 0, 31⟩, ⟨47, 48, 0, 3, 32⟩,
      ⟨48, 47, 3, 0, 33⟩, ⟨48, 48, 3, 3, 34⟩, ⟨49, 49, 4, 4, 28⟩, ⟨49, 50, 4, 0, 29⟩,
      ⟨50, 49, 0, 4, 30⟩, ⟨50, 50, 0, 0, 31⟩, ⟨50, 51, 0, 3, 32⟩, ⟨51, 50, 3, 0, 33⟩,
      ⟨51, 51, 3, 3, 34⟩, ⟨52, 52, 4, 4, 28⟩, ⟨52, 53, 4, 0, 29⟩, ⟨53, 52, 0, 4, 30⟩,
      ⟨53, 53, 0, 0, 31⟩, ⟨53, 54, 0, 3, 32⟩, ⟨54, 53, 3, 0, 33⟩, ⟨54, 54, 3, 3, 34⟩,
      ⟨55, 55, 4, 4, 28⟩, ⟨55, 56, 4, 0, 29⟩, ⟨56, 55, 0, 4, 30⟩, ⟨56, 56, 0, 0, 31⟩,
      ⟨56, 57, 0, 3, 32⟩, ⟨57, 56, 3, 0, 33⟩, ⟨57, 57, 3, 3, 34⟩, ⟨58, 58, 4, 4, 28⟩,
      ⟨58, 59, 4, 0, 29⟩, ⟨59, 58, 0, 4, 30⟩, ⟨59, 59, 0, 0, 31⟩, ⟨59, 60, 0, 3, 32⟩,
      ⟨60, 59, 3, 0, 33⟩, ⟨60, 60, 3, 3, 34⟩, ⟨61, 61, 6, 6, 41⟩, ⟨61, 62, 6, 2, 42⟩,
      ⟨62, 61, 2, 6, 43⟩, ⟨62, 62, 2, 2, 44⟩, ⟨62, 63, 2, 1, 45⟩, ⟨63, 62, 1, 2, 46⟩,
      ⟨63, 63, 1, 1, 47⟩, ⟨63, 64, 1, 5, 48⟩, ⟨64, 63, 5, 1, 49⟩, ⟨64, 64, 5, 5, 50⟩]⟩,
    ⟨[.plus 2], [3], some [
      ⟨1, 1, 0, 3, 0⟩, ⟨2, 2, 0, 3, 0⟩, ⟨3, 3, 0, 3, 0⟩, ⟨4, 4, 0, 3, 0⟩, ⟨5, 5, 0, 3, 0⟩,
      ⟨6, 6, 0, 3, 0⟩, ⟨7, 7, 0, 3, 0⟩, ⟨8, 8, 0, 3, 0⟩, ⟨9, 9, 0, 3, 0⟩, ⟨10, 10, 0, 3, 0⟩,
      ⟨11, 11, 0, 3, 0⟩, ⟨12, 12, 0, 3, 0⟩, ⟨13, 13, 0, 3, 0⟩, ⟨14, 14, 0, 3, 0⟩,
      ⟨15, 15, 2, 1, 25⟩, ⟨16, 15, 1, 1, 26⟩, ⟨16, 16, 1, 5, 0⟩, ⟨17, 17, 2, 1, 25⟩,
      ⟨18, 17, 1, 1, 26⟩, ⟨18, 18, 1, 5, 0⟩, ⟨19, 19, 2, 1, 25⟩, ⟨20, 19, 1, 1, 26⟩,
      ⟨20, 20, 1, 5, 0⟩, ⟨21, 21, 2, 1, 25⟩, ⟨22, 21, 1, 1, 26⟩, ⟨22, 22, 1, 5, 0⟩,
      ⟨23, 23, 2, 1, 25⟩, ⟨24, 23, 1, 1, 26⟩, ⟨24, 24, 1, 5, 0⟩, ⟨25, 25, 2, 1, 25⟩,
      ⟨26, 25, 1, 1, 26⟩, ⟨26, 26, 1, 5, 0⟩, ⟨27, 27, 2, 1, 25⟩, ⟨28, 27, 1, 1, 26⟩,
      ⟨28, 28, 1, 5, 0⟩, ⟨29, 29, 2, 1, 25⟩, ⟨30, 29, 1, 1, 26⟩, ⟨30, 30, 1, 5, 0⟩,
      ⟨31, 31, 2, 1, 25⟩, ⟨32, 31, 1, 1, 26⟩, ⟨32, 32, 1, 5, 0⟩, ⟨33, 33, 2, 1, 25⟩,
      ⟨34, 33, 1, 1, 26⟩, ⟨34, 34, 1, 5, 0⟩, ⟨35, 35, 2, 1, 25⟩, ⟨36, 35, 1, 1, 26⟩,
      ⟨36, 36, 1, 5, 0⟩, ⟨37, 37, 2, 1, 25⟩, ⟨38, 37, 1, 1, 26⟩, ⟨38, 38, 1, 5, 0⟩,
      ⟨39, 39, 2, 1, 25⟩, ⟨40, 39, 1, 1, 26⟩, ⟨40, 40, 1, 5, 0⟩, ⟨41, 41, 2, 1, 25⟩,
      ⟨42, 41, 1, 1, 26⟩, ⟨42, 42, 1, 5, 0⟩, ⟨43, 43, 4, 0, 35⟩, ⟨44, 43, 0, 0, 36⟩,
      ⟨44, 44, 0, 3, 34⟩, ⟨45, 43, 3, 0, 37⟩, ⟨45, 44, 3, 3, 38⟩, ⟨45, 45, 3, 7, 0⟩,
      ⟨46, 46, 4, 0, 35⟩, ⟨47, 46, 0, 0, 36⟩, ⟨47, 47, 0, 3, 34⟩, ⟨48, 46, 3, 0, 37⟩,
      ⟨48, 47, 3, 3, 38⟩, ⟨48, 48, 3, 7, 0⟩, ⟨49, 49, 4, 0, 35⟩, ⟨50, 49, 0, 0, 36⟩,
      ⟨50, 50, 0, 3, 34⟩, ⟨51, 49, 3, 0, 37⟩, ⟨51, 50, 3, 3, 38⟩, ⟨51, 51, 3, 7, 0⟩,
      ⟨52, 52, 4, 0, 35⟩, ⟨53, 52, 0, 0, 36⟩, ⟨53, 53, 0, 3, 34⟩, ⟨54, 52, 3, 0, 37⟩,
      ⟨54, 53, 3, 3, 38⟩, ⟨54, 54, 3, 7, 0⟩, ⟨55, 55, 4, 0, 35⟩, ⟨56, 55, 0, 0, 36⟩,
      ⟨56, 56, 0, 3, 34⟩, ⟨57, 55, 3, 0, 37⟩, ⟨57, 56, 3, 3, 38⟩, ⟨57, 57, 3, 7, 0⟩,
      ⟨58, 58, 4, 0, 35⟩, ⟨59, 58, 0, 0, 36⟩, ⟨59, 59, 0, 3, 34⟩, ⟨60, 58, 3, 0, 37⟩,
      ⟨60, 59, 3, 3, 38⟩, ⟨60, 60, 3, 7, 0⟩, ⟨61, 61, 6, 2, 51⟩, ⟨62, 61, 2, 2, 52⟩,
      ⟨62, 62, 2, 1, 53⟩, ⟨63, 61, 1, 2, 54⟩, ⟨63, 62, 1, 1, 55⟩, ⟨63, 63, 1, 5, 56⟩,
      ⟨64, 62, 5, 1, 57⟩, ⟨64, 63, 5, 5, 58⟩, ⟨64, 64, 5, 9, 0⟩]⟩,
    ⟨[.plus (-2)], [3], none⟩]

/-- The label expressions in the operator tables of `SPSU2LR`. -/
def labs_SPSU2LR : List LabelExpr := [
  [.plus 0, .times (-1)],
  [.plus 1, .times (-1)],
  [.plus 0, .times 1],
  [.plus 1, .times 1],
  [.plus (-1), .times (-1)],
  [.plus 2, .times (-1)],
  [.plus (-1), .times 1],
  [.plus 2, .times 1],
  [.plus (-2), .times (-1)],
  [.plus 3, .times (-1)],
  [.plus (-2), .times 1],
  [.plus (-3), .times (-1)],
  [.plus 3, .times 1],
  [.plus 4, .times (-1)],
  [.plus (-3), .times 1],
  [.plus (-4), .times (-1)]]

/-- `recalc_doublet` in `nrg-recalc-SPSU2LR.hpp:32-`, 2 channel(s): `spsu2lr-2ch-doubletp.dat`, `spsu2lr-2ch-doubletm.dat`. -/
def op_SPSU2LR_2ch_doublet : OpTable where
  builtin := ⟨"SPSU2LR", 2, fields_SPSU2LR, tab_SPSU2LR_2ch⟩
  kind := .doublet
  labs := labs_SPSU2LR
  targets := [
    ⟨[.plus 1, .times 1], [-1, 1], some [
      ⟨1, 1, 0, 1, 0⟩, ⟨2, 2, 2, 3, 0⟩, ⟨3, 3, 2, 3, 0⟩, ⟨4, 4, 2, 3, 0⟩, ⟨5, 5, 2, 3, 0⟩,
      ⟨6, 6, 4, 0, 1⟩, ⟨7, 6, 1, 0, 2⟩, ⟨7, 7, 1, 5, 3⟩, ⟨8, 8, 4, 0, 1⟩, ⟨9, 8, 1, 0, 2⟩,
      ⟨9, 9, 1, 5, 3⟩, ⟨10, 10, 6, 2, 1⟩, ⟨11, 10, 3, 2, 2⟩, ⟨11, 11, 3, 7, 3⟩,
      ⟨12, 12, 6, 2, 1⟩, ⟨13, 12, 3, 2, 2⟩, ⟨13, 13, 3, 7, 3⟩, ⟨14, 14, 8, 4, 4⟩,
      ⟨15, 14, 0, 4, 5⟩, ⟨15, 15, 0, 1, 6⟩, ⟨16, 15, 5, 1, 7⟩, ⟨16, 16, 5, 9, 0⟩]⟩,
    ⟨[.plus (-1), .times 1], [1, 1], some [
      ⟨1, 1, 0, 4, 0⟩, ⟨2, 2, 2, 6, 0⟩, ⟨3, 3, 2, 6, 0⟩, ⟨4, 4, 2, 6, 0⟩, ⟨5, 5, 2, 6, 0⟩,
      ⟨6, 6, 4, 8, 3⟩, ⟨6, 7, 4, 0, 8⟩, ⟨7, 7, 1, 0, 1⟩, ⟨8, 8, 4, 8, 3⟩, ⟨8, 9, 4, 0, 8⟩,
      ⟨9, 9, 1, 0, 1⟩, ⟨10, 10, 6, 10, 3⟩, ⟨10, 11, 6, 2, 8⟩, ⟨11, 11, 3, 2, 1⟩,
      ⟨12, 12, 6, 10, 3⟩, ⟨12, 13, 6, 2, 8⟩, ⟨13, 13, 3, 2, 1⟩, ⟨14, 14, 8, 11, 0⟩,
      ⟨14, 15, 8, 4, 9⟩, ⟨15, 15, 0, 4, 10⟩, ⟨15, 16, 0, 1, 11⟩, ⟨16, 16, 5, 1, 12⟩]⟩]

/-- `recalc_triplet` in `nrg-recalc-SPSU2LR.hpp:172-`, 2 channel(s): `spsu2lr-2ch-triplets.dat`, `spsu2lr-2ch-tripletp.dat`, `spsu2lr-2ch-tripletm.dat`. -/
def op_SPSU2LR_2ch_triplet : OpTable where
  builtin := ⟨"SPSU2LR", 2, fields_SPSU2LR, tab_SPSU2LR_2ch⟩
  kind := .triplet
  labs := labs_SPSU2LR
  targets := [
    ⟨[.plus 0, .times 1], [0, 1], some [
      ⟨1, 1, 0, 0, 0⟩, ⟨2, 2, 2, 2, 0⟩, ⟨3, 3, 2, 2, 0⟩, ⟨4, 4, 2, 2, 0⟩, ⟨5, 5, 2, 2, 0⟩,
      ⟨6, 6, 4, 4, 4⟩, ⟨6, 7, 4, 1, 11⟩, ⟨7, 6, 1, 4, 5⟩, ⟨7, 7, 1, 1, 13⟩, ⟨8, 8, 4, 4, 4⟩,
      ⟨8, 9, 4, 1, 11⟩, ⟨9, 8, 1, 4, 5⟩, ⟨9, 9, 1, 1, 13⟩, ⟨10, 10, 6, 6, 4⟩, ⟨10, 11, 6, 3, 11⟩,
      ⟨11, 10, 3, 6, 5⟩, ⟨11, 11, 3, 3, 13⟩, ⟨12, 12, 6, 6, 4⟩, ⟨12, 13, 6, 3, 11⟩,
      ⟨13, 12, 3, 6, 5⟩, ⟨13, 13, 3, 3, 13⟩, ⟨14, 14, 8, 8, 14⟩, ⟨14, 15, 8, 0, 15⟩,
      ⟨15, 14, 0, 8, 16⟩, ⟨15, 15, 0, 0, 17⟩, ⟨15, 16, 0, 5, 18⟩, ⟨16, 15, 5, 0, 19⟩,
      ⟨16, 16, 5, 5, 20⟩]⟩,
    ⟨[.plus 2, .times 1], [-2, 1], some [
      ⟨1, 1, 0, 5, 0⟩, ⟨2, 2, 2, 7, 0⟩, ⟨3, 3, 2, 7, 0⟩, ⟨4, 4, 2, 7, 0⟩, ⟨5, 5, 2, 7, 0⟩,
      ⟨6, 6, 4, 1, 21⟩, ⟨7, 6, 1, 1, 22⟩, ⟨7, 7, 1, 9, 0⟩, ⟨8, 8, 4, 1, 21⟩, ⟨9, 8, 1, 1, 22⟩,
      ⟨9, 9, 1, 9, 0⟩, ⟨10, 10, 6, 3, 21⟩, ⟨11, 10, 3, 3, 22⟩, ⟨11, 11, 3, 12, 0⟩,
      ⟨12, 12, 6, 3, 21⟩, ⟨13, 12, 3, 3, 22⟩, ⟨13, 13, 3, 12, 0⟩, ⟨14, 14, 8, 0, 23⟩,
      ⟨15, 14, 0, 0, 24⟩, ⟨15, 15, 0, 5, 20⟩, ⟨16, 14, 5, 0, 25⟩, ⟨16, 15, 5, 5, 26⟩,
      ⟨16, 16, 5, 13, 0⟩]⟩,
    ⟨[.plus (-2), .times 1], [2, 1], some [
      ⟨1, 1, 0, 8, 0⟩, ⟨2, 2, 2, 10, 0⟩, ⟨3, 3, 2, 10, 0⟩, ⟨4, 4, 2, 10, 0⟩, ⟨5, 5, 2, 10, 0⟩,
      ⟨6, 6, 4, 11, 0⟩, ⟨6, 7, 4, 4, 9⟩, ⟨7, 7, 1, 4, 27⟩, ⟨8, 8, 4, 11, 0⟩, ⟨8, 9, 4, 4, 9⟩,
      ⟨9, 9, 1, 4, 27⟩, ⟨10, 10, 6, 14, 0⟩, ⟨10, 11, 6, 6, 9⟩, ⟨11, 11, 3, 6, 27⟩,
      ⟨12, 12, 6, 14, 0⟩, ⟨12, 13, 6, 6, 9⟩, ⟨13, 13, 3, 6, 27⟩, ⟨14, 14, 8, 15, 0⟩,
      ⟨14, 15, 8, 8, 28⟩, ⟨14, 16, 8, 0, 29⟩, ⟨15, 15, 0, 8, 14⟩, ⟨15, 16, 0, 0, 15⟩,
      ⟨16, 16, 5, 0, 23⟩]⟩]

/-- The label expressions in the operator tables of `SPU1`. -/
def labs_SPU1 : List LabelExpr := [
  [.plus 1],
  [.plus 2],
  [.plus 0],
  [.plus (-1)],
  [.plus (-2)],
  [.plus 3],
  [.plus (-3)],
  [.plus 4],
  [.plus (-4)]]

/-- `recalc_doublet` in `nrg-recalc-SPU1.hpp:32-`, 1 channel(s): `spu1-1ch-doubletp.dat`, `spu1-1ch-doubletm.dat`. -/
def op_SPU1_1ch_doublet : OpTable where
  builtin := ⟨"SPU1", 1, fields_SPU1, tab_SPU1_1ch⟩
  kind := .doublet
  labs := labs_SPU1
  targets := [
    ⟨[.plus 1], [-1], some [
      ⟨1, 1, 0, 1, 0⟩, ⟨2, 2, 2, 0, 1⟩, ⟨3, 3, 2, 0, 1⟩, ⟨4, 4, 3, 2, 0⟩]⟩,
    ⟨[.plus (-1)], [1], some [
      ⟨1, 1, 0, 2, 0⟩, ⟨2, 2, 2, 3, 1⟩, ⟨3, 3, 2, 3, 1⟩, ⟨4, 4, 3, 4, 0⟩]⟩]

/-- `recalc_doublet` in `nrg-recalc-SPU1.hpp:32-`, 2 channel(s): `spu1-2ch-doubletp.dat`, `spu1-2ch-doubletm.dat`. -/
def op_SPU1_2ch_doublet : OpTable where
  builtin := ⟨"SPU1", 2, fields_SPU1, tab_SPU1_2ch⟩
  kind := .doublet
  labs := labs_SPU1
  targets := [
    ⟨[.plus 1], [-1], some [
      ⟨1, 1, 1, 5, 1⟩, ⟨2, 2, 0, 1, 0⟩, ⟨3, 3, 0, 1, 0⟩, ⟨4, 4, 0, 1, 0⟩, ⟨5, 5, 0, 1, 0⟩,
      ⟨6, 6, 2, 0, 1⟩, ⟨7, 7, 2, 0, 1⟩, ⟨8, 8, 2, 0, 1⟩, ⟨9, 9, 2, 0, 1⟩, ⟨10, 10, 2, 0, 1⟩,
      ⟨11, 11, 2, 0, 1⟩, ⟨12, 12, 3, 2, 0⟩, ⟨13, 13, 3, 2, 0⟩, ⟨14, 14, 3, 2, 0⟩,
      ⟨15, 15, 3, 2, 0⟩, ⟨16, 16, 4, 3, 1⟩]⟩,
    ⟨[.plus (-1)], [1], some [
      ⟨1, 1, 1, 0, 1⟩, ⟨2, 2, 0, 2, 0⟩, ⟨3, 3, 0, 2, 0⟩, ⟨4, 4, 0, 2, 0⟩, ⟨5, 5, 0, 2, 0⟩,
      ⟨6, 6, 2, 3, 1⟩, ⟨7, 7, 2, 3, 1⟩, ⟨8, 8, 2, 3, 1⟩, ⟨9, 9, 2, 3, 1⟩, ⟨10, 10, 2, 3, 1⟩,
      ⟨11, 11, 2, 3, 1⟩, ⟨12, 12, 3, 4, 0⟩, ⟨13, 13, 3, 4, 0⟩, ⟨14, 14, 3, 4, 0⟩,
      ⟨15, 15, 3, 4, 0⟩, ⟨16, 16, 4, 6, 1⟩]⟩]

/-- `recalc_triplet` in `nrg-recalc-SPU1.hpp:245-`, 1 channel(s): `spu1-1ch-triplets.dat`, `spu1-1ch-tripletp.dat`, `spu1-1ch-tripletm.dat`. -/
def op_SPU1_1ch_triplet : OpTable where
  builtin := ⟨"SPU1", 1, fields_SPU1, tab_SPU1_1ch⟩
  kind := .triplet
  labs := labs_SPU1
  targets := [
    ⟨[.plus 0], [0], some [
      ⟨1, 1, 0, 0, 1⟩, ⟨2, 2, 2, 2, 1⟩, ⟨3, 3, 2, 2, 1⟩, ⟨4, 4, 3, 3, 1⟩]⟩,
    ⟨[.plus 2], [-2], some [
      ⟨1, 1, 0, 5, 1⟩, ⟨2, 2, 2, 1, 1⟩, ⟨3, 3, 2, 1, 1⟩, ⟨4, 4, 3, 0, 1⟩]⟩,
    ⟨[.plus (-2)], [2], some [
      ⟨1, 1, 0, 3, 1⟩, ⟨2, 2, 2, 4, 1⟩, ⟨3, 3, 2, 4, 1⟩, ⟨4, 4, 3, 6, 1⟩]⟩]

/-- `recalc_triplet` in `nrg-recalc-SPU1.hpp:245-`, 2 channel(s): `spu1-2ch-triplets.dat`, `spu1-2ch-tripletp.dat`, `spu1-2ch-tripletm.dat`. -/
def op_SPU1_2ch_triplet : OpTable where
  builtin := ⟨"SPU1", 2, fields_SPU1, tab_SPU1_2ch⟩
  kind := .triplet
  labs := labs_SPU1
  targets := [
    ⟨[.plus 0], [0], some [
      ⟨1, 1, 1, 1, 1⟩, ⟨2, 2, 0, 0, 1⟩, ⟨3, 3, 0, 0, 1⟩, ⟨4, 4, 0, 0, 1⟩, ⟨5, 5, 0, 0, 1⟩,
      ⟨6, 6, 2, 2, 1⟩, ⟨7, 7, 2, 2, 1⟩, ⟨8, 8, 2, 2, 1⟩, ⟨9, 9, 2, 2, 1⟩, ⟨10, 10, 2, 2, 1⟩,
      ⟨11, 11, 2, 2, 1⟩, ⟨12, 12, 3, 3, 1⟩, ⟨13, 13, 3, 3, 1⟩, ⟨14, 14, 3, 3, 1⟩,
      ⟨15, 15, 3, 3, 1⟩, ⟨16, 16, 4, 4, 1⟩]⟩,
    ⟨[.plus 2], [-2], some [
      ⟨1, 1, 1, 7, 1⟩, ⟨2, 2, 0, 5, 1⟩, ⟨3, 3, 0, 5, 1⟩, ⟨4, 4, 0, 5, 1⟩, ⟨5, 5, 0, 5, 1⟩,
      ⟨6, 6, 2, 1, 1⟩, ⟨7, 7, 2, 1, 1⟩, ⟨8, 8, 2, 1, 1⟩, ⟨9, 9, 2, 1, 1⟩, ⟨10, 10, 2, 1, 1⟩,
      ⟨11, 11, 2, 1, 1⟩, ⟨12, 12, 3, 0, 1⟩, ⟨13, 13, 3, 0, 1⟩, ⟨14, 14, 3, 0, 1⟩,
      ⟨15, 15, 3, 0, 1⟩, ⟨16, 16, 4, 2, 1⟩]⟩,
    ⟨[.plus (-2)], [2], some [
      ⟨1, 1, 1, 2, 1⟩, ⟨2, 2, 0, 3, 1⟩, ⟨3, 3, 0, 3, 1⟩, ⟨4, 4, 0, 3, 1⟩, ⟨5, 5, 0, 3, 1⟩,
      ⟨6, 6, 2, 4, 1⟩, ⟨7, 7, 2, 4, 1⟩, ⟨8, 8, 2, 4, 1⟩, ⟨9, 9, 2, 4, 1⟩, ⟨10, 10, 2, 4, 1⟩,
      ⟨11, 11, 2, 4, 1⟩, ⟨12, 12, 3, 6, 1⟩, ⟨13, 13, 3, 6, 1⟩, ⟨14, 14, 3, 6, 1⟩,
      ⟨15, 15, 3, 6, 1⟩, ⟨16, 16, 4, 8, 1⟩]⟩]

/-- The label expressions in the operator tables of `SPU1LR`. -/
def labs_SPU1LR : List LabelExpr := [
  [.plus 1, .times 1],
  [.plus 2, .times 1],
  [.plus 0, .times 1],
  [.plus (-1), .times 1],
  [.plus (-2), .times 1],
  [.plus 2, .times (-1)],
  [.plus 3, .times (-1)],
  [.plus 1, .times (-1)],
  [.plus 0, .times (-1)],
  [.plus (-1), .times (-1)],
  [.plus (-2), .times (-1)],
  [.plus (-3), .times (-1)],
  [.plus 3, .times 1],
  [.plus (-3), .times 1],
  [.plus 4, .times (-1)],
  [.plus (-4), .times (-1)]]

/-- `recalc_doublet` in `nrg-recalc-SPU1LR.hpp:32-`, 1 channel(s): `spu1lr-1ch-doubletp.dat`, `spu1lr-1ch-doubletm.dat`. -/
def op_SPU1LR_1ch_doublet : OpTable where
  builtin := ⟨"SPU1LR", 1, fields_SPU1LR, tab_SPU1LR_1ch⟩
  kind := .doublet
  labs := labs_SPU1LR
  targets := [
    ⟨[.plus 1], [-1, 1], some [
      ⟨1, 1, 0, 1, 0⟩, ⟨2, 2, 2, 0, 1⟩, ⟨3, 3, 2, 0, 1⟩, ⟨4, 4, 3, 2, 0⟩]⟩,
    ⟨[.plus (-1)], [1, 1], some [
      ⟨1, 1, 0, 2, 0⟩, ⟨2, 2, 2, 3, 1⟩, ⟨3, 3, 2, 3, 1⟩, ⟨4, 4, 3, 4, 0⟩]⟩]

/-- `recalc_doublet` in `nrg-recalc-SPU1LR.hpp:32-`, 2 channel(s): `spu1lr-2ch-doubletp.dat`, `spu1lr-2ch-doubletm.dat`. -/
def op_SPU1LR_2ch_doublet : OpTable where
  builtin := ⟨"SPU1LR", 2, fields_SPU1LR, tab_SPU1LR_2ch⟩
  kind := .doublet
  labs := labs_SPU1LR
  targets := [
    ⟨[.plus 1], [-1, 1], some [
      ⟨1, 1, 5, 6, 1⟩, ⟨2, 2, 7, 5, 0⟩, ⟨3, 3, 7, 5, 0⟩, ⟨4, 4, 0, 1, 0⟩, ⟨5, 5, 0, 1, 0⟩,
      ⟨6, 6, 8, 7, 1⟩, ⟨7, 7, 8, 7, 1⟩, ⟨8, 8, 2, 0, 1⟩, ⟨9, 9, 2, 0, 1⟩, ⟨10, 10, 2, 0, 1⟩,
      ⟨11, 11, 2, 0, 1⟩, ⟨12, 12, 9, 8, 0⟩, ⟨13, 13, 9, 8, 0⟩, ⟨14, 14, 3, 2, 0⟩,
      ⟨15, 15, 3, 2, 0⟩, ⟨16, 16, 10, 9, 1⟩]⟩,
    ⟨[.plus (-1)], [1, 1], some [
      ⟨1, 1, 5, 7, 1⟩, ⟨2, 2, 7, 8, 0⟩, ⟨3, 3, 7, 8, 0⟩, ⟨4, 4, 0, 2, 0⟩, ⟨5, 5, 0, 2, 0⟩,
      ⟨6, 6, 8, 9, 1⟩, ⟨7, 7, 8, 9, 1⟩, ⟨8, 8, 2, 3, 1⟩, ⟨9, 9, 2, 3, 1⟩, ⟨10, 10, 2, 3, 1⟩,
      ⟨11, 11, 2, 3, 1⟩, ⟨12, 12, 9, 10, 0⟩, ⟨13, 13, 9, 10, 0⟩, ⟨14, 14, 3, 4, 0⟩,
      ⟨15, 15, 3, 4, 0⟩, ⟨16, 16, 10, 11, 1⟩]⟩]

/-- `recalc_triplet` in `nrg-recalc-SPU1LR.hpp:228-`, 1 channel(s): `spu1lr-1ch-triplets.dat`, `spu1lr-1ch-tripletp.dat`, `spu1lr-1ch-tripletm.dat`. -/
def op_SPU1LR_1ch_triplet : OpTable where
  builtin := ⟨"SPU1LR", 1, fields_SPU1LR, tab_SPU1LR_1ch⟩
  kind := .triplet
  labs := labs_SPU1LR
  targets := [
    ⟨[.plus 0], [0, 1], some [
      ⟨1, 1, 0, 0, 1⟩, ⟨2, 2, 2, 2, 1⟩, ⟨3, 3, 2, 2, 1⟩, ⟨4, 4, 3, 3, 1⟩]⟩,
    ⟨[.plus 2], [-2, 1], some [
      ⟨1, 1, 0, 12, 1⟩, ⟨2, 2, 2, 1, 1⟩, ⟨3, 3, 2, 1, 1⟩, ⟨4, 4, 3, 0, 1⟩]⟩,
    ⟨[.plus (-2)], [2, 1], some [
      ⟨1, 1, 0, 3, 1⟩, ⟨2, 2, 2, 4, 1⟩, ⟨3, 3, 2, 4, 1⟩, ⟨4, 4, 3, 13, 1⟩]⟩]

/-- `recalc_triplet` in `nrg-recalc-SPU1LR.hpp:228-`, 2 channel(s): `spu1lr-2ch-triplets.dat`, `spu1lr-2ch-tripletp.dat`, `spu1lr-2ch-tripletm.dat`. -/
def op_SPU1LR_2ch_triplet : OpTable where
  builtin := ⟨"SPU1LR", 2, fields_SPU1LR, tab_SPU1LR_2ch⟩
  kind := .triplet
  labs := labs_SPU1LR
  targets := [
    ⟨[.plus 0], [0, 1], some [
      ⟨1, 1, 5, 5, 1⟩, ⟨2, 2, 7, 7, 1⟩, ⟨3, 3, 7, 7, 1⟩, ⟨4, 4, 0, 0, 1⟩, ⟨5, 5, 0, 0, 1⟩,
      ⟨6, 6, 8, 8, 1⟩, ⟨7, 7, 8, 8, 1⟩, ⟨8, 8, 2, 2, 1⟩, ⟨9, 9, 2, 2, 1⟩, ⟨10, 10, 2, 2, 1⟩,
      ⟨11, 11, 2, 2, 1⟩, ⟨12, 12, 9, 9, 1⟩, ⟨13, 13, 9, 9, 1⟩, ⟨14, 14, 3, 3, 1⟩,
      ⟨15, 15, 3, 3, 1⟩, ⟨16, 16, 10, 10, 1⟩]⟩,
    ⟨[.plus 2], [-2, 1], some [
      ⟨1, 1, 5, 14, 1⟩, ⟨2, 2, 7, 6, 1⟩, ⟨3, 3, 7, 6, 1⟩, ⟨4, 4, 0, 12, 1⟩, ⟨5, 5, 0, 12, 1⟩,
      ⟨6, 6, 8, 5, 1⟩, ⟨7, 7, 8, 5, 1⟩, ⟨8, 8, 2, 1, 1⟩, ⟨9, 9, 2, 1, 1⟩, ⟨10, 10, 2, 1, 1⟩,
      ⟨11, 11, 2, 1, 1⟩, ⟨12, 12, 9, 7, 1⟩, ⟨13, 13, 9, 7, 1⟩, ⟨14, 14, 3, 0, 1⟩,
      ⟨15, 15, 3, 0, 1⟩, ⟨16, 16, 10, 8, 1⟩]⟩,
    ⟨[.plus (-2)], [2, 1], some [
      ⟨1, 1, 5, 8, 1⟩, ⟨2, 2, 7, 9, 1⟩, ⟨3, 3, 7, 9, 1⟩, ⟨4, 4, 0, 3, 1⟩, ⟨5, 5, 0, 3, 1⟩,
      ⟨6, 6, 8, 10, 1⟩, ⟨7, 7, 8, 10, 1⟩, ⟨8, 8, 2, 4, 1⟩, ⟨9, 9, 2, 4, 1⟩, ⟨10, 10, 2, 4, 1⟩,
      ⟨11, 11, 2, 4, 1⟩, ⟨12, 12, 9, 11, 1⟩, ⟨13, 13, 9, 11, 1⟩, ⟨14, 14, 3, 13, 1⟩,
      ⟨15, 15, 3, 13, 1⟩, ⟨16, 16, 10, 15, 1⟩]⟩]

/-- The label expressions in the operator tables of `SU2`. -/
def labs_SU2 : List LabelExpr := [
  [.plus (-1)],
  [.plus (-2)],
  [.plus 0],
  [.plus 1],
  [.plus 2],
  [.plus (-3)],
  [.plus 3]]

/-- `recalc_doublet` in `nrg-recalc-SU2.hpp:32-`, 1 channel(s): `su2-1ch-doubletm.dat`, `su2-1ch-doubletp.dat`. -/
def op_SU2_1ch_doublet : OpTable where
  builtin := ⟨"SU2", 1, fields_SU2, tab_SU2_1ch⟩
  kind := .doublet
  labs := labs_SU2
  targets := [
    ⟨[.plus (-1)], [2], some [
      ⟨1, 1, 0, 1, 0⟩, ⟨1, 2, 0, 2, 1⟩, ⟨2, 2, 3, 2, 2⟩, ⟨3, 3, 2, 0, 3⟩, ⟨4, 4, 2, 0, 3⟩]⟩,
    ⟨[.plus 1], [2], some [
      ⟨1, 1, 0, 2, 2⟩, ⟨2, 1, 3, 2, 4⟩, ⟨2, 2, 3, 4, 0⟩, ⟨3, 3, 2, 3, 3⟩, ⟨4, 4, 2, 3, 3⟩]⟩]

/-- `recalc_doublet` in `nrg-recalc-SU2.hpp:32-`, 2 channel(s): `su2-2ch-doubletm.dat`, `su2-2ch-doubletp.dat`. -/
def op_SU2_2ch_doublet : OpTable where
  builtin := ⟨"SU2", 2, fields_SU2, tab_SU2_2ch⟩
  kind := .doublet
  labs := labs_SU2
  targets := [
    ⟨[.plus (-1)], [2], some [
      ⟨1, 1, 1, 5, 0⟩, ⟨1, 2, 1, 0, 5⟩, ⟨2, 2, 2, 0, 6⟩, ⟨2, 3, 2, 3, 7⟩, ⟨3, 3, 4, 3, 8⟩,
      ⟨4, 4, 0, 1, 3⟩, ⟨4, 5, 0, 2, 4⟩, ⟨5, 5, 3, 2, 9⟩, ⟨6, 6, 0, 1, 3⟩, ⟨6, 7, 0, 2, 4⟩,
      ⟨7, 7, 3, 2, 9⟩, ⟨8, 8, 0, 1, 3⟩, ⟨8, 9, 0, 2, 4⟩, ⟨9, 9, 3, 2, 9⟩, ⟨10, 10, 0, 1, 3⟩,
      ⟨10, 11, 0, 2, 4⟩, ⟨11, 11, 3, 2, 9⟩, ⟨12, 12, 2, 0, 0⟩, ⟨13, 13, 2, 0, 0⟩,
      ⟨14, 14, 2, 0, 0⟩, ⟨15, 15, 2, 0, 0⟩, ⟨16, 16, 2, 0, 0⟩]⟩,
    ⟨[.plus 1], [2], some [
      ⟨1, 1, 1, 0, 10⟩, ⟨2, 1, 2, 0, 11⟩, ⟨2, 2, 2, 3, 12⟩, ⟨3, 2, 4, 3, 13⟩, ⟨3, 3, 4, 6, 0⟩,
      ⟨4, 4, 0, 2, 9⟩, ⟨5, 4, 3, 2, 1⟩, ⟨5, 5, 3, 4, 3⟩, ⟨6, 6, 0, 2, 9⟩, ⟨7, 6, 3, 2, 1⟩,
      ⟨7, 7, 3, 4, 3⟩, ⟨8, 8, 0, 2, 9⟩, ⟨9, 8, 3, 2, 1⟩, ⟨9, 9, 3, 4, 3⟩, ⟨10, 10, 0, 2, 9⟩,
      ⟨11, 10, 3, 2, 1⟩, ⟨11, 11, 3, 4, 3⟩, ⟨12, 12, 2, 3, 0⟩, ⟨13, 13, 2, 3, 0⟩,
      ⟨14, 14, 2, 3, 0⟩, ⟨15, 15, 2, 3, 0⟩, ⟨16, 16, 2, 3, 0⟩]⟩]

/-- The label expressions in the operator tables of `U1`. -/
def labs_U1 : List LabelExpr := [
  [.plus 1],
  [.plus 0],
  [.plus (-1)],
  [.plus (-2)],
  [.plus 2],
  [.plus (-3)],
  [.plus 3],
  [.plus (-4)]]

/-- `recalc_doublet` in `nrg-recalc-U1.hpp:33-`, 1 channel(s): `u1-1ch-doublet.dat`. -/
def op_U1_1ch_doublet : OpTable where
  builtin := ⟨"U1", 1, fields_U1, tab_U1_1ch⟩
  kind := .doublet
  labs := labs_U1
  targets := [
    ⟨[.plus (-1)], [1], some [
      ⟨1, 1, 0, 1, 0⟩, ⟨2, 2, 1, 2, 1⟩, ⟨3, 3, 1, 2, 1⟩, ⟨4, 4, 2, 3, 0⟩]⟩]

/-- `recalc_doublet` in `nrg-recalc-U1.hpp:33-`, 2 channel(s): `u1-2ch-doublet.dat`. -/
def op_U1_2ch_doublet : OpTable where
  builtin := ⟨"U1", 2, fields_U1, tab_U1_2ch⟩
  kind := .doublet
  labs := labs_U1
  targets := [
    ⟨[.plus (-1)], [1], some [
      ⟨1, 1, 4, 0, 0⟩, ⟨2, 2, 0, 1, 1⟩, ⟨3, 3, 0, 1, 1⟩, ⟨4, 4, 0, 1, 1⟩, ⟨5, 5, 0, 1, 1⟩,
      ⟨6, 6, 1, 2, 0⟩, ⟨7, 7, 1, 2, 0⟩, ⟨8, 8, 1, 2, 0⟩, ⟨9, 9, 1, 2, 0⟩, ⟨10, 10, 1, 2, 0⟩,
      ⟨11, 11, 1, 2, 0⟩, ⟨12, 12, 2, 3, 1⟩, ⟨13, 13, 2, 3, 1⟩, ⟨14, 14, 2, 3, 1⟩,
      ⟨15, 15, 2, 3, 1⟩, ⟨16, 16, 3, 5, 0⟩]⟩]

/-- `recalc_doublet` in `nrg-recalc-U1.hpp:33-`, 3 channel(s): `u1-3ch-doublet.dat`. -/
def op_U1_3ch_doublet : OpTable where
  builtin := ⟨"U1", 3, fields_U1, tab_U1_3ch⟩
  kind := .doublet
  labs := labs_U1
  targets := [
    ⟨[.plus (-1)], [1], some [
      ⟨1, 1, 6, 4, 0⟩, ⟨2, 2, 4, 0, 1⟩, ⟨3, 3, 4, 0, 1⟩, ⟨4, 4, 4, 0, 1⟩, ⟨5, 5, 4, 0, 1⟩,
      ⟨6, 6, 4, 0, 1⟩, ⟨7, 7, 4, 0, 1⟩, ⟨8, 8, 0, 1, 0⟩, ⟨9, 9, 0, 1, 0⟩, ⟨10, 10, 0, 1, 0⟩,
      ⟨11, 11, 0, 1, 0⟩, ⟨12, 12, 0, 1, 0⟩, ⟨13, 13, 0, 1, 0⟩, ⟨14, 14, 0, 1, 0⟩,
      ⟨15, 15, 0, 1, 0⟩, ⟨16, 16, 0, 1, 0⟩, ⟨17, 17, 0, 1, 0⟩, ⟨18, 18, 0, 1, 0⟩,
      ⟨19, 19, 0, 1, 0⟩, ⟨20, 20, 0, 1, 0⟩, ⟨21, 21, 0, 1, 0⟩, ⟨22, 22, 0, 1, 0⟩,
      ⟨23, 23, 1, 2, 1⟩, ⟨24, 24, 1, 2, 1⟩, ⟨25, 25, 1, 2, 1⟩, ⟨26, 26, 1, 2, 1⟩,
      ⟨27, 27, 1, 2, 1⟩, ⟨28, 28, 1, 2, 1⟩, ⟨29, 29, 1, 2, 1⟩, ⟨30, 30, 1, 2, 1⟩,
      ⟨31, 31, 1, 2, 1⟩, ⟨32, 32, 1, 2, 1⟩, ⟨33, 33, 1, 2, 1⟩, ⟨34, 34, 1, 2, 1⟩,
      ⟨35, 35, 1, 2, 1⟩, ⟨36, 36, 1, 2, 1⟩, ⟨37, 37, 1, 2, 1⟩, ⟨38, 38, 1, 2, 1⟩,
      ⟨39, 39, 1, 2, 1⟩, ⟨40, 40, 1, 2, 1⟩, ⟨41, 41, 1, 2, 1⟩, ⟨42, 42, 1, 2, 1⟩,
      ⟨43, 43, 2, 3, 0⟩, ⟨44, 44, 2, 3, 0⟩, ⟨45, 45, 2, 3, 0⟩, ⟨46, 46, 2, 3, 0⟩,
      ⟨47, 47, 2, 3, 0⟩, ⟨48, 48, 2, 3, 0⟩, ⟨49, 49, 2, 3, 0⟩, ⟨50, 50, 2, 3, 0⟩,
      ⟨51, 51, 2, 3, 0⟩, ⟨52, 52, 2, 3, 0⟩, ⟨53, 53, 2, 3, 0⟩, ⟨54, 54, 2, 3, 0⟩,
      ⟨55, 55, 2, 3, 0⟩, ⟨56, 56, 2, 3, 0⟩, ⟨57, 57, 2, 3, 0⟩, ⟨58, 58, 3, 5, 1⟩,
      ⟨59, 59, 3, 5, 1⟩, ⟨60, 60, 3, 5, 1⟩, ⟨61, 61, 3, 5, 1⟩, ⟨62, 62, 3, 5, 1⟩,
      ⟨63, 63, 3, 5, 1⟩, ⟨64, 64, 5, 7, 0⟩]⟩]

end Verif.Oper
