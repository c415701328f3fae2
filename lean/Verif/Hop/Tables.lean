import Verif.Hop.Model
/-!
# The shipped Hamiltonian tables

Generated by `scripts/gen_hops.py` from `c++/symmetry/sym-*-impl.hpp`,
`c++/symmetry/nrg-recalc-*.hpp` and the files they include from
`c++/symmetry/coefnew`.
-/

namespace Verif.Hop
open Verif.Symm

/-- `recalc_irreduc` in `nrg-recalc-DBLISOSZ.hpp`: `dblisosz-2ch-type1-isoup-a.dat`, `dblisosz-2ch-type2-isoup-a.dat`, `dblisosz-2ch-type1-isoup-b.dat`, `dblisosz-2ch-type2-isoup-b.dat`, `dblisosz-2ch-type1-isodown-a.dat`, `dblisosz-2ch-type2-isodown-a.dat`, `dblisosz-2ch-type1-isodown-b.dat`, `dblisosz-2ch-type2-isodown-b.dat`. -/
def fblocks_DBLISOSZ_2ch : List FBlock := [
  ⟨[1, 0, 1], 0, 0, [(2,10), (4,12), (7,15), (8,16), (9,1), (11,3), (13,5), (14,6)]⟩,
  ⟨[1, 0, -1], 0, 0, [(1,10), (3,12), (5,15), (6,16), (9,2), (11,4), (13,7), (14,8)]⟩,
  ⟨[0, 1, 1], 1, 0, [(3,6), (4,8), (5,1), (7,2), (11,14), (12,16), (13,9), (15,10)]⟩,
  ⟨[0, 1, -1], 1, 0, [(1,6), (2,8), (5,3), (7,4), (9,14), (10,16), (13,11), (15,12)]⟩,
  ⟨[-1, 0, 1], 0, 0, [(2,9), (4,11), (7,13), (8,14), (10,1), (12,3), (15,5), (16,6)]⟩,
  ⟨[-1, 0, -1], 0, 0, [(1,9), (3,11), (5,13), (6,14), (10,2), (12,4), (15,7), (16,8)]⟩,
  ⟨[0, -1, 1], 1, 0, [(3,5), (4,7), (6,1), (8,2), (11,13), (12,15), (14,9), (16,10)]⟩,
  ⟨[0, -1, -1], 1, 0, [(1,5), (2,7), (6,3), (8,4), (9,13), (10,15), (14,11), (16,12)]⟩]

/-- `make_matrix` in `sym-DBLISOSZ-impl.hpp`: `dblisosz/dblisosz-2ch-offdiag.dat`. -/
def ham_DBLISOSZ_2ch_plain : HamTable where
  variant := .plain
  hops := [
    ⟨.offdiag, 0, 0, [(1,9), (1,10), (2,9), (2,10), (3,11), (3,12), (4,11), (4,12), (5,13), (5,15), (6,14), (6,16), (7,13), (7,15),
    (8,14), (8,16)]⟩,
    ⟨.offdiag, 1, 0, [(1,5), (1,6), (2,7), (2,8), (3,5), (3,6), (4,7), (4,8), (9,13), (9,14), (10,15), (10,16), (11,13), (11,14),
    (12,15), (12,16)]⟩]
  siteHops := []
  occupations := [
]

/-- Class `SymmetryDBLISOSZ` with 2 channel(s). -/
def ham_DBLISOSZ_2ch : Ham where
  builtin := ⟨"DBLISOSZ", 2, fields_DBLISOSZ, tab_DBLISOSZ_2ch⟩
  blocks := fblocks_DBLISOSZ_2ch
  invarF := none
  guard := .plain
  variants := [ham_DBLISOSZ_2ch_plain]

/-- `recalc_irreduc` in `nrg-recalc-DBLQSZ.hpp`: `dblqsz-2ch-spinup-a.dat`, `dblqsz-2ch-spindown-a.dat`, `dblqsz-2ch-spinup-b.dat`, `dblqsz-2ch-spindown-b.dat`. -/
def fblocks_DBLQSZ_2ch : List FBlock := [
  ⟨[1, 0, 1], 0, 0, [(6,1), (9,2), (10,3), (12,4), (13,5), (14,7), (15,8), (16,11)]⟩,
  ⟨[1, 0, -1], 0, 0, [(5,1), (7,2), (8,3), (11,4), (13,6), (14,9), (15,10), (16,12)]⟩,
  ⟨[0, 1, 1], 1, 0, [(3,1), (4,2), (8,5), (10,6), (11,7), (12,9), (15,13), (16,14)]⟩,
  ⟨[0, 1, -1], 1, 0, [(2,1), (4,3), (7,5), (9,6), (11,8), (12,10), (14,13), (16,15)]⟩]

/-- `make_matrix` in `sym-DBLQSZ-impl.hpp`: `dblqsz/dblqsz-2ch-offdiag.dat`, `dblqsz/dblqsz-2ch-diag.dat`. -/
def ham_DBLQSZ_2ch_plain : HamTable where
  variant := .plain
  hops := [
    ⟨.offdiag, 0, 0, [(1,5), (1,6), (2,7), (2,9), (3,8), (3,10), (4,11), (4,12), (5,13), (6,13), (7,14), (8,15), (9,14), (10,15),
    (11,16), (12,16)]⟩,
    ⟨.offdiag, 1, 0, [(1,2), (1,3), (2,4), (3,4), (5,7), (5,8), (6,9), (6,10), (7,11), (8,11), (9,12), (10,12), (13,14), (13,15),
    (14,16), (15,16)]⟩]
  siteHops := []
  occupations := [
    ⟨.both, 0, [(1,0), (2,0), (3,0), (4,0), (5,2), (6,2), (7,2), (8,2), (9,2), (10,2), (11,2), (12,2), (13,4), (14,4),
    (15,4), (16,4)]⟩,
    ⟨.both, 1, [(1,0), (2,2), (3,2), (4,4), (5,0), (6,0), (7,2), (8,2), (9,2), (10,2), (11,4), (12,4), (13,0), (14,2),
    (15,2), (16,4)]⟩]

/-- Class `SymmetryDBLQSZ` with 2 channel(s). -/
def ham_DBLQSZ_2ch : Ham where
  builtin := ⟨"DBLQSZ", 2, fields_DBLQSZ, tab_DBLQSZ_2ch⟩
  blocks := fblocks_DBLQSZ_2ch
  invarF := none
  guard := .plain
  variants := [ham_DBLQSZ_2ch_plain]

/-- `recalc_irreduc` in `nrg-recalc-DBLSU2.hpp`: `dblsu2-2ch-type1-isoup-a.dat`, `dblsu2-2ch-type2-isoup-a.dat`, `dblsu2-2ch-type1-isoup-b.dat`, `dblsu2-2ch-type2-isoup-b.dat`, `dblsu2-2ch-type1-isodown-a.dat`, `dblsu2-2ch-type2-isodown-a.dat`, `dblsu2-2ch-type1-isodown-b.dat`, `dblsu2-2ch-type2-isodown-b.dat`. -/
def fblocks_DBLSU2_2ch : List FBlock := [
  ⟨[1, 0], 0, 0, [(3,10), (4,12), (7,15), (8,16), (9,1), (11,2), (13,5), (14,6)]⟩,
  ⟨[1, 0], 0, 1, [(1,10), (2,12), (5,15), (6,16), (9,3), (11,4), (13,7), (14,8)]⟩,
  ⟨[0, 1], 1, 0, [(2,6), (4,8), (5,1), (7,3), (11,14), (12,16), (13,9), (15,10)]⟩,
  ⟨[0, 1], 1, 1, [(1,6), (3,8), (5,2), (7,4), (9,14), (10,16), (13,11), (15,12)]⟩,
  ⟨[-1, 0], 0, 0, [(3,9), (4,11), (7,13), (8,14), (10,1), (12,2), (15,5), (16,6)]⟩,
  ⟨[-1, 0], 0, 1, [(1,9), (2,11), (5,13), (6,14), (10,3), (12,4), (15,7), (16,8)]⟩,
  ⟨[0, -1], 1, 0, [(2,5), (4,7), (6,1), (8,3), (11,13), (12,15), (14,9), (16,10)]⟩,
  ⟨[0, -1], 1, 1, [(1,5), (3,7), (6,2), (8,4), (9,13), (10,15), (14,11), (16,12)]⟩]

/-- `make_matrix` in `sym-DBLSU2-impl.hpp`: `dblsu2/dblsu2-2ch-offdiag-1.dat`, `dblsu2/dblsu2-2ch-offdiag-2.dat`. -/
def ham_DBLSU2_2ch_plain : HamTable where
  variant := .plain
  hops := [
    ⟨.type1, 0, 0, [(1,9), (1,10), (2,11), (2,12), (5,13), (5,15), (6,14), (6,16)]⟩,
    ⟨.type1, 1, 0, [(1,5), (1,6), (3,7), (3,8), (9,13), (9,14), (10,15), (10,16)]⟩,
    ⟨.type2, 0, 1, [(3,9), (3,10), (4,11), (4,12), (7,13), (7,15), (8,14), (8,16)]⟩,
    ⟨.type2, 1, 1, [(2,5), (2,6), (4,7), (4,8), (11,13), (11,14), (12,15), (12,16)]⟩]
  siteHops := []
  occupations := [
]

/-- Class `SymmetryDBLSU2` with 2 channel(s). -/
def ham_DBLSU2_2ch : Ham where
  builtin := ⟨"DBLSU2", 2, fields_DBLSU2, tab_DBLSU2_2ch⟩
  blocks := fblocks_DBLSU2_2ch
  invarF := none
  guard := .plain
  variants := [ham_DBLSU2_2ch_plain]

/-- `recalc_irreduc` in `nrg-recalc-ISO.hpp`: `iso-1ch-spinup-isoupa.dat`, `iso-1ch-spindown-isoupa.dat`, `iso-1ch-spinup-isodowna.dat`, `iso-1ch-spindown-isodowna.dat`. -/
def fblocks_ISO_1ch : List FBlock := [
  ⟨[1, 1], 0, 0, [(1,4), (3,2)]⟩,
  ⟨[1, -1], 0, 0, [(1,3), (4,2)]⟩,
  ⟨[-1, 1], 0, 0, [(2,4), (3,1)]⟩,
  ⟨[-1, -1], 0, 0, [(2,3), (4,1)]⟩]

/-- `make_matrix` in `sym-ISO-impl.hpp`: `iso/iso-1ch-offdiag.dat`. -/
def ham_ISO_1ch_plain : HamTable where
  variant := .plain
  hops := [
    ⟨.offdiag, 0, 0, [(1,3), (1,4), (2,3), (2,4)]⟩]
  siteHops := []
  occupations := [
]

/-- Class `SymmetryISO` with 1 channel(s). -/
def ham_ISO_1ch : Ham where
  builtin := ⟨"ISO", 1, fields_ISO, tab_ISO_1ch⟩
  blocks := fblocks_ISO_1ch
  invarF := none
  guard := .plain
  variants := [ham_ISO_1ch_plain]

/-- `recalc_irreduc` in `nrg-recalc-ISO.hpp`: `iso-2ch-spinup-isoupa.dat`, `iso-2ch-spinup-isoupb.dat`, `iso-2ch-spindown-isoupa.dat`, `iso-2ch-spindown-isoupb.dat`, `iso-2ch-spinup-isodowna.dat`, `iso-2ch-spinup-isodownb.dat`, `iso-2ch-spindown-isodowna.dat`, `iso-2ch-spindown-isodownb.dat`. -/
def fblocks_ISO_2ch : List FBlock := [
  ⟨[1, 1], 0, 0, [(1,6), (2,7), (4,2), (4,15), (5,3), (8,13), (8,16), (10,14), (12,9), (13,11), (15,7), (16,11)]⟩,
  ⟨[1, 1], 1, 0, [(1,10), (2,11), (4,13), (4,16), (6,14), (8,2), (8,15), (9,3), (12,5), (13,7), (15,11), (16,7)]⟩,
  ⟨[1, -1], 0, 0, [(1,4), (2,5), (6,2), (6,15), (7,3), (8,12), (10,13), (10,16), (13,9), (14,11), (15,5), (16,9)]⟩,
  ⟨[1, -1], 1, 0, [(1,8), (2,9), (4,12), (6,13), (6,16), (10,2), (10,15), (11,3), (13,5), (14,7), (15,9), (16,5)]⟩,
  ⟨[-1, 1], 0, 0, [(2,6), (3,7), (4,1), (5,2), (5,15), (9,13), (9,16), (11,14), (12,8), (13,10), (15,6), (16,10)]⟩,
  ⟨[-1, 1], 1, 0, [(2,10), (3,11), (5,13), (5,16), (7,14), (8,1), (9,2), (9,15), (12,4), (13,6), (15,10), (16,6)]⟩,
  ⟨[-1, -1], 0, 0, [(2,4), (3,5), (6,1), (7,2), (7,15), (9,12), (11,13), (11,16), (13,8), (14,10), (15,4), (16,8)]⟩,
  ⟨[-1, -1], 1, 0, [(2,8), (3,9), (5,12), (7,13), (7,16), (10,1), (11,2), (11,15), (13,4), (14,6), (15,8), (16,4)]⟩]

/-- `make_matrix` in `sym-ISO-impl.hpp`: `iso/iso-2ch-offdiag.dat`. -/
def ham_ISO_2ch_plain : HamTable where
  variant := .plain
  hops := [
    ⟨.offdiag, 0, 0, [(1,4), (1,6), (2,4), (2,5), (2,6), (2,7), (3,5), (3,7), (4,15), (5,15), (6,15), (7,15), (8,12), (8,13),
    (8,16), (9,12), (9,13), (9,16), (10,13), (10,14), (10,16), (11,13), (11,14), (11,16)]⟩,
    ⟨.offdiag, 1, 0, [(1,8), (1,10), (2,8), (2,9), (2,10), (2,11), (3,9), (3,11), (4,12), (4,13), (4,16), (5,12), (5,13), (5,16),
    (6,13), (6,14), (6,16), (7,13), (7,14), (7,16), (8,15), (9,15), (10,15), (11,15)]⟩]
  siteHops := []
  occupations := [
]

/-- Class `SymmetryISO` with 2 channel(s). -/
def ham_ISO_2ch : Ham where
  builtin := ⟨"ISO", 2, fields_ISO, tab_ISO_2ch⟩
  blocks := fblocks_ISO_2ch
  invarF := none
  guard := .plain
  variants := [ham_ISO_2ch_plain]

/-- `recalc_irreduc` in `nrg-recalc-ISO.hpp`: `iso-3ch-spinup-isoupa.dat`, `iso-3ch-spinup-isoupb.dat`, `iso-3ch-spinup-isoupc.dat`, `iso-3ch-spindown-isoupa.dat`, `iso-3ch-spindown-isoupb.dat`, `iso-3ch-spindown-isoupc.dat`, `iso-3ch-spinup-isodowna.dat`, `iso-3ch-spinup-isodownb.dat`, `iso-3ch-spinup-isodownc.dat`, `iso-3ch-spindown-isodowna.dat`, `iso-3ch-spindown-isodownb.dat`, `iso-3ch-spindown-isodownc.dat`. -/
def fblocks_ISO_3ch : List FBlock := [
  ⟨[1, 1], 0, 0, [(1,8), (2,9), (3,10), (5,2), (5,41), (6,3), (6,42), (7,4), (11,25), (11,43), (12,26), (12,44), (14,27), (15,28),
    (17,31), (17,47), (18,32), (18,48), (20,33), (21,34), (23,12), (23,55), (24,13), (25,15), (25,56), (26,16), (29,18), (29,59),
    (30,19), (31,21), (31,60), (32,22), (35,52), (35,61), (35,63), (37,53), (37,62), (37,64), (39,54), (41,9), (42,10), (43,15),
    (43,56), (44,16), (45,58), (47,21), (47,60), (48,22), (49,62), (49,64), (51,36), (52,38), (53,40), (55,26), (55,44), (56,28),
    (57,46), (59,32), (59,48), (60,34), (61,38), (61,50), (62,40), (63,38), (63,50), (64,40)]⟩,
  ⟨[1, 1], 1, 0, [(1,14), (2,15), (3,16), (5,25), (5,43), (6,26), (6,44), (8,27), (9,28), (11,2), (11,41), (11,45), (12,3), (12,42),
    (12,46), (13,4), (17,37), (17,49), (18,38), (18,50), (20,39), (21,40), (23,6), (23,57), (24,7), (25,9), (25,58), (26,10),
    (29,52), (29,61), (29,63), (31,53), (31,62), (31,64), (33,54), (35,18), (35,59), (36,19), (37,21), (37,60), (38,22), (41,15),
    (41,56), (42,16), (43,9), (43,58), (44,10), (45,15), (45,56), (46,16), (47,62), (47,64), (49,21), (49,60), (50,22), (51,30),
    (52,32), (53,34), (55,42), (55,46), (57,26), (57,44), (58,28), (59,38), (59,50), (60,40), (61,32), (61,48), (62,34), (63,32),
    (63,48), (64,34)]⟩,
  ⟨[1, 1], 2, 0, [(1,20), (2,21), (3,22), (5,31), (5,47), (6,32), (6,48), (8,33), (9,34), (11,37), (11,49), (12,38), (12,50), (14,39),
    (15,40), (17,2), (17,41), (17,45), (18,3), (18,42), (18,46), (19,4), (23,52), (23,63), (25,53), (25,64), (27,54), (29,6),
    (29,57), (30,7), (31,9), (31,58), (32,10), (35,12), (35,55), (36,13), (37,15), (37,56), (38,16), (41,21), (41,60), (42,22),
    (43,62), (45,21), (45,60), (46,22), (47,9), (47,58), (48,10), (49,15), (49,56), (50,16), (51,24), (52,26), (53,28), (55,38),
    (55,50), (56,40), (57,32), (57,48), (58,34), (59,42), (59,46), (61,44), (63,26), (64,28)]⟩,
  ⟨[1, -1], 0, 0, [(1,5), (2,6), (3,7), (8,2), (8,41), (9,3), (9,42), (10,4), (11,23), (12,24), (14,25), (14,43), (15,26), (15,44),
    (17,29), (18,30), (20,31), (20,47), (21,32), (21,48), (25,12), (25,55), (26,13), (27,15), (27,56), (28,16), (31,18), (31,59),
    (32,19), (33,21), (33,60), (34,22), (35,51), (37,52), (37,61), (37,63), (39,53), (39,62), (39,64), (41,6), (42,7), (43,12),
    (43,55), (44,13), (45,57), (47,18), (47,59), (48,19), (49,61), (49,63), (52,36), (53,38), (54,40), (55,24), (56,26), (56,44),
    (58,46), (59,30), (60,32), (60,48), (61,36), (62,38), (62,50), (63,36), (64,38), (64,50)]⟩,
  ⟨[1, -1], 1, 0, [(1,11), (2,12), (3,13), (5,23), (6,24), (8,25), (8,43), (9,26), (9,44), (14,2), (14,41), (14,45), (15,3), (15,42),
    (15,46), (16,4), (17,35), (18,36), (20,37), (20,49), (21,38), (21,50), (25,6), (25,57), (26,7), (27,9), (27,58), (28,10),
    (29,51), (31,52), (31,61), (31,63), (33,53), (33,62), (33,64), (37,18), (37,59), (38,19), (39,21), (39,60), (40,22), (41,12),
    (41,55), (42,13), (43,6), (43,57), (44,7), (45,12), (45,55), (46,13), (47,61), (47,63), (49,18), (49,59), (50,19), (52,30),
    (53,32), (54,34), (56,42), (56,46), (57,24), (58,26), (58,44), (59,36), (60,38), (60,50), (61,30), (62,32), (62,48), (63,30),
    (64,32), (64,48)]⟩,
  ⟨[1, -1], 2, 0, [(1,17), (2,18), (3,19), (5,29), (6,30), (8,31), (8,47), (9,32), (9,48), (11,35), (12,36), (14,37), (14,49), (15,38),
    (15,50), (20,2), (20,41), (20,45), (21,3), (21,42), (21,46), (22,4), (23,51), (25,52), (25,63), (27,53), (27,64), (31,6),
    (31,57), (32,7), (33,9), (33,58), (34,10), (37,12), (37,55), (38,13), (39,15), (39,56), (40,16), (41,18), (41,59), (42,19),
    (43,61), (45,18), (45,59), (46,19), (47,6), (47,57), (48,7), (49,12), (49,55), (50,13), (52,24), (53,26), (54,28), (55,36),
    (56,38), (56,50), (57,30), (58,32), (58,48), (60,42), (60,46), (62,44), (63,24), (64,26)]⟩,
  ⟨[-1, 1], 0, 0, [(2,8), (3,9), (4,10), (5,1), (6,2), (6,41), (7,3), (7,42), (12,25), (12,43), (13,26), (13,44), (15,27), (16,28),
    (18,31), (18,47), (19,32), (19,48), (21,33), (22,34), (23,11), (24,12), (24,55), (25,14), (26,15), (26,56), (29,17), (30,18),
    (30,59), (31,20), (32,21), (32,60), (36,52), (36,61), (36,63), (38,53), (38,62), (38,64), (40,54), (41,8), (42,9), (43,14),
    (44,15), (44,56), (46,58), (47,20), (48,21), (48,60), (50,62), (50,64), (51,35), (52,37), (53,39), (55,25), (55,43), (56,27),
    (57,45), (59,31), (59,47), (60,33), (61,37), (61,49), (62,39), (63,37), (63,49), (64,39)]⟩,
  ⟨[-1, 1], 1, 0, [(2,14), (3,15), (4,16), (6,25), (6,43), (7,26), (7,44), (9,27), (10,28), (11,1), (12,2), (12,41), (12,45), (13,3),
    (13,42), (13,46), (18,37), (18,49), (19,38), (19,50), (21,39), (22,40), (23,5), (24,6), (24,57), (25,8), (26,9), (26,58),
    (30,52), (30,61), (30,63), (32,53), (32,62), (32,64), (34,54), (35,17), (36,18), (36,59), (37,20), (38,21), (38,60), (41,14),
    (42,15), (42,56), (43,8), (44,9), (44,58), (45,14), (46,15), (46,56), (48,62), (48,64), (49,20), (50,21), (50,60), (51,29),
    (52,31), (53,33), (55,41), (55,45), (57,25), (57,43), (58,27), (59,37), (59,49), (60,39), (61,31), (61,47), (62,33), (63,31),
    (63,47), (64,33)]⟩,
  ⟨[-1, 1], 2, 0, [(2,20), (3,21), (4,22), (6,31), (6,47), (7,32), (7,48), (9,33), (10,34), (12,37), (12,49), (13,38), (13,50), (15,39),
    (16,40), (17,1), (18,2), (18,41), (18,45), (19,3), (19,42), (19,46), (24,52), (24,63), (26,53), (26,64), (28,54), (29,5),
    (30,6), (30,57), (31,8), (32,9), (32,58), (35,11), (36,12), (36,55), (37,14), (38,15), (38,56), (41,20), (42,21), (42,60),
    (44,62), (45,20), (46,21), (46,60), (47,8), (48,9), (48,58), (49,14), (50,15), (50,56), (51,23), (52,25), (53,27), (55,37),
    (55,49), (56,39), (57,31), (57,47), (58,33), (59,41), (59,45), (61,43), (63,25), (64,27)]⟩,
  ⟨[-1, -1], 0, 0, [(2,5), (3,6), (4,7), (8,1), (9,2), (9,41), (10,3), (10,42), (12,23), (13,24), (15,25), (15,43), (16,26), (16,44),
    (18,29), (19,30), (21,31), (21,47), (22,32), (22,48), (25,11), (26,12), (26,55), (27,14), (28,15), (28,56), (31,17), (32,18),
    (32,59), (33,20), (34,21), (34,60), (36,51), (38,52), (38,61), (38,63), (40,53), (40,62), (40,64), (41,5), (42,6), (43,11),
    (44,12), (44,55), (46,57), (47,17), (48,18), (48,59), (50,61), (50,63), (52,35), (53,37), (54,39), (55,23), (56,25), (56,43),
    (58,45), (59,29), (60,31), (60,47), (61,35), (62,37), (62,49), (63,35), (64,37), (64,49)]⟩,
  ⟨[-1, -1], 1, 0, [(2,11), (3,12), (4,13), (6,23), (7,24), (9,25), (9,43), (10,26), (10,44), (14,1), (15,2), (15,41), (15,45), (16,3),
    (16,42), (16,46), (18,35), (19,36), (21,37), (21,49), (22,38), (22,50), (25,5), (26,6), (26,57), (27,8), (28,9), (28,58),
    (30,51), (32,52), (32,61), (32,63), (34,53), (34,62), (34,64), (37,17), (38,18), (38,59), (39,20), (40,21), (40,60), (41,11),
    (42,12), (42,55), (43,5), (44,6), (44,57), (45,11), (46,12), (46,55), (48,61), (48,63), (49,17), (50,18), (50,59), (52,29),
    (53,31), (54,33), (56,41), (56,45), (57,23), (58,25), (58,43), (59,35), (60,37), (60,49), (61,29), (62,31), (62,47), (63,29),
    (64,31), (64,47)]⟩,
  ⟨[-1, -1], 2, 0, [(2,17), (3,18), (4,19), (6,29), (7,30), (9,31), (9,47), (10,32), (10,48), (12,35), (13,36), (15,37), (15,49), (16,38),
    (16,50), (20,1), (21,2), (21,41), (21,45), (22,3), (22,42), (22,46), (24,51), (26,52), (26,63), (28,53), (28,64), (31,5),
    (32,6), (32,57), (33,8), (34,9), (34,58), (37,11), (38,12), (38,55), (39,14), (40,15), (40,56), (41,17), (42,18), (42,59),
    (44,61), (45,17), (46,18), (46,59), (47,5), (48,6), (48,57), (49,11), (50,12), (50,55), (52,23), (53,25), (54,27), (55,35),
    (56,37), (56,49), (57,29), (58,31), (58,47), (60,41), (60,45), (62,43), (63,23), (64,25)]⟩]

/-- `make_matrix` in `sym-ISO-impl.hpp`: `iso/iso-3ch-offdiag.dat`. -/
def ham_ISO_3ch_plain : HamTable where
  variant := .plain
  hops := [
    ⟨.offdiag, 0, 0, [(1,5), (1,8), (2,5), (2,6), (2,8), (2,9), (3,6), (3,7), (3,9), (3,10), (4,7), (4,10), (5,41), (6,41),
    (6,42), (7,42), (8,41), (9,41), (9,42), (10,42), (11,23), (11,25), (11,43), (12,23), (12,24), (12,25), (12,26), (12,43),
    (12,44), (13,24), (13,26), (13,44), (14,25), (14,27), (14,43), (15,25), (15,26), (15,27), (15,28), (15,43), (15,44), (16,26),
    (16,28), (16,44), (17,29), (17,31), (17,47), (18,29), (18,30), (18,31), (18,32), (18,47), (18,48), (19,30), (19,32), (19,48),
    (20,31), (20,33), (20,47), (21,31), (21,32), (21,33), (21,34), (21,47), (21,48), (22,32), (22,34), (22,48), (23,55), (24,55),
    (25,55), (25,56), (26,55), (26,56), (27,56), (28,56), (29,59), (30,59), (31,59), (31,60), (32,59), (32,60), (33,60), (34,60),
    (35,51), (35,52), (35,61), (35,63), (36,51), (36,52), (36,61), (36,63), (37,52), (37,53), (37,61), (37,62), (37,63), (37,64),
    (38,52), (38,53), (38,61), (38,62), (38,63), (38,64), (39,53), (39,54), (39,62), (39,64), (40,53), (40,54), (40,62), (40,64),
    (43,55), (43,56), (44,55), (44,56), (45,57), (45,58), (46,57), (46,58), (47,59), (47,60), (48,59), (48,60), (49,61), (49,62),
    (49,63), (49,64), (50,61), (50,62), (50,63), (50,64)]⟩,
    ⟨.offdiag, 1, 0, [(1,11), (1,14), (2,11), (2,12), (2,14), (2,15), (3,12), (3,13), (3,15), (3,16), (4,13), (4,16), (5,23), (5,25),
    (5,43), (6,23), (6,24), (6,25), (6,26), (6,43), (6,44), (7,24), (7,26), (7,44), (8,25), (8,27), (8,43), (9,25),
    (9,26), (9,27), (9,28), (9,43), (9,44), (10,26), (10,28), (10,44), (11,41), (11,45), (12,41), (12,42), (12,45), (12,46),
    (13,42), (13,46), (14,41), (14,45), (15,41), (15,42), (15,45), (15,46), (16,42), (16,46), (17,35), (17,37), (17,49), (18,35),
    (18,36), (18,37), (18,38), (18,49), (18,50), (19,36), (19,38), (19,50), (20,37), (20,39), (20,49), (21,37), (21,38), (21,39),
    (21,40), (21,49), (21,50), (22,38), (22,40), (22,50), (23,57), (24,57), (25,57), (25,58), (26,57), (26,58), (27,58), (28,58),
    (29,51), (29,52), (29,61), (29,63), (30,51), (30,52), (30,61), (30,63), (31,52), (31,53), (31,61), (31,62), (31,63), (31,64),
    (32,52), (32,53), (32,61), (32,62), (32,63), (32,64), (33,53), (33,54), (33,62), (33,64), (34,53), (34,54), (34,62), (34,64),
    (35,59), (36,59), (37,59), (37,60), (38,59), (38,60), (39,60), (40,60), (41,55), (41,56), (42,55), (42,56), (43,57), (43,58),
    (44,57), (44,58), (45,55), (45,56), (46,55), (46,56), (47,61), (47,62), (47,63), (47,64), (48,61), (48,62), (48,63), (48,64),
    (49,59), (49,60), (50,59), (50,60)]⟩,
    ⟨.offdiag, 2, 0, [(1,17), (1,20), (2,17), (2,18), (2,20), (2,21), (3,18), (3,19), (3,21), (3,22), (4,19), (4,22), (5,29), (5,31),
    (5,47), (6,29), (6,30), (6,31), (6,32), (6,47), (6,48), (7,30), (7,32), (7,48), (8,31), (8,33), (8,47), (9,31),
    (9,32), (9,33), (9,34), (9,47), (9,48), (10,32), (10,34), (10,48), (11,35), (11,37), (11,49), (12,35), (12,36), (12,37),
    (12,38), (12,49), (12,50), (13,36), (13,38), (13,50), (14,37), (14,39), (14,49), (15,37), (15,38), (15,39), (15,40), (15,49),
    (15,50), (16,38), (16,40), (16,50), (17,41), (17,45), (18,41), (18,42), (18,45), (18,46), (19,42), (19,46), (20,41), (20,45),
    (21,41), (21,42), (21,45), (21,46), (22,42), (22,46), (23,51), (23,52), (23,63), (24,51), (24,52), (24,63), (25,52), (25,53),
    (25,63), (25,64), (26,52), (26,53), (26,63), (26,64), (27,53), (27,54), (27,64), (28,53), (28,54), (28,64), (29,57), (30,57),
    (31,57), (31,58), (32,57), (32,58), (33,58), (34,58), (35,55), (36,55), (37,55), (37,56), (38,55), (38,56), (39,56), (40,56),
    (41,59), (41,60), (42,59), (42,60), (43,61), (43,62), (44,61), (44,62), (45,59), (45,60), (46,59), (46,60), (47,57), (47,58),
    (48,57), (48,58), (49,55), (49,56), (50,55), (50,56)]⟩]
  siteHops := []
  occupations := [
]

/-- Class `SymmetryISO` with 3 channel(s). -/
def ham_ISO_3ch : Ham where
  builtin := ⟨"ISO", 3, fields_ISO, tab_ISO_3ch⟩
  blocks := fblocks_ISO_3ch
  invarF := none
  guard := .plain
  variants := [ham_ISO_3ch_plain]

/-- `recalc_irreduc` in `nrg-recalc-ISO2.hpp`: `iso2-1ch-spinup-isoupa.dat`, `iso2-1ch-spindown-isoupa.dat`, `iso2-1ch-spinup-isodowna.dat`, `iso2-1ch-spindown-isodowna.dat`. -/
def fblocks_ISO2_1ch : List FBlock := [
  ⟨[1, 1], 0, 0, [(1,4), (3,2)]⟩,
  ⟨[1, -1], 0, 0, [(1,3), (4,2)]⟩,
  ⟨[-1, 1], 0, 0, [(2,4), (3,1)]⟩,
  ⟨[-1, -1], 0, 0, [(2,3), (4,1)]⟩]

/-- `make_matrix` in `sym-ISO-impl.hpp`: `iso2/iso2-1ch-offdiag.dat`. -/
def ham_ISO2_1ch_plain : HamTable where
  variant := .plain
  hops := [
    ⟨.offdiag, 0, 0, [(1,3), (1,4), (2,3), (2,4)]⟩]
  siteHops := []
  occupations := [
]

/-- Class `SymmetryISO2` with 1 channel(s). -/
def ham_ISO2_1ch : Ham where
  builtin := ⟨"ISO2", 1, fields_ISO, tab_ISO2_1ch⟩
  blocks := fblocks_ISO2_1ch
  invarF := none
  guard := .plain
  variants := [ham_ISO2_1ch_plain]

/-- `recalc_irreduc` in `nrg-recalc-ISO2.hpp`: `iso2-2ch-spinup-isoupa.dat`, `iso2-2ch-spinup-isoupb.dat`, `iso2-2ch-spindown-isoupa.dat`, `iso2-2ch-spindown-isoupb.dat`, `iso2-2ch-spinup-isodowna.dat`, `iso2-2ch-spinup-isodownb.dat`, `iso2-2ch-spindown-isodowna.dat`, `iso2-2ch-spindown-isodownb.dat`. -/
def fblocks_ISO2_2ch : List FBlock := [
  ⟨[1, 1], 0, 0, [(1,6), (2,7), (4,2), (4,15), (5,3), (8,13), (8,16), (10,14), (12,9), (13,11), (15,7), (16,11)]⟩,
  ⟨[1, 1], 1, 0, [(1,10), (2,11), (4,13), (4,16), (6,14), (8,2), (8,15), (9,3), (12,5), (13,7), (15,11), (16,7)]⟩,
  ⟨[1, -1], 0, 0, [(1,4), (2,5), (6,2), (6,15), (7,3), (8,12), (10,13), (10,16), (13,9), (14,11), (15,5), (16,9)]⟩,
  ⟨[1, -1], 1, 0, [(1,8), (2,9), (4,12), (6,13), (6,16), (10,2), (10,15), (11,3), (13,5), (14,7), (15,9), (16,5)]⟩,
  ⟨[-1, 1], 0, 0, [(2,6), (3,7), (4,1), (5,2), (5,15), (9,13), (9,16), (11,14), (12,8), (13,10), (15,6), (16,10)]⟩,
  ⟨[-1, 1], 1, 0, [(2,10), (3,11), (5,13), (5,16), (7,14), (8,1), (9,2), (9,15), (12,4), (13,6), (15,10), (16,6)]⟩,
  ⟨[-1, -1], 0, 0, [(2,4), (3,5), (6,1), (7,2), (7,15), (9,12), (11,13), (11,16), (13,8), (14,10), (15,4), (16,8)]⟩,
  ⟨[-1, -1], 1, 0, [(2,8), (3,9), (5,12), (7,13), (7,16), (10,1), (11,2), (11,15), (13,4), (14,6), (15,8), (16,4)]⟩]

/-- `make_matrix` in `sym-ISO-impl.hpp`: `iso2/iso2-2ch-offdiag.dat`. -/
def ham_ISO2_2ch_plain : HamTable where
  variant := .plain
  hops := [
    ⟨.offdiag, 0, 0, [(1,4), (1,6), (2,4), (2,5), (2,6), (2,7), (3,5), (3,7), (4,15), (5,15), (6,15), (7,15), (8,12), (8,13),
    (8,16), (9,12), (9,13), (9,16), (10,13), (10,14), (10,16), (11,13), (11,14), (11,16)]⟩,
    ⟨.offdiag, 1, 0, [(1,8), (1,10), (2,8), (2,9), (2,10), (2,11), (3,9), (3,11), (4,12), (4,13), (4,16), (5,12), (5,13), (5,16),
    (6,13), (6,14), (6,16), (7,13), (7,14), (7,16), (8,15), (9,15), (10,15), (11,15)]⟩]
  siteHops := []
  occupations := [
]

/-- Class `SymmetryISO2` with 2 channel(s). -/
def ham_ISO2_2ch : Ham where
  builtin := ⟨"ISO2", 2, fields_ISO, tab_ISO2_2ch⟩
  blocks := fblocks_ISO2_2ch
  invarF := none
  guard := .plain
  variants := [ham_ISO2_2ch_plain]

/-- `recalc_irreduc` in `nrg-recalc-ISOLR.hpp`: `isolr-2ch-spinup-isoupa.dat`, `isolr-2ch-spinup-isoupb.dat`, `isolr-2ch-spindown-isoupa.dat`, `isolr-2ch-spindown-isoupb.dat`, `isolr-2ch-spinup-isodowna.dat`, `isolr-2ch-spinup-isodownb.dat`, `isolr-2ch-spindown-isodowna.dat`, `isolr-2ch-spindown-isodownb.dat`, `isolr-2ch-spinup-isoupdiffa.dat`, `isolr-2ch-spinup-isoupdiffb.dat`, `isolr-2ch-spindown-isoupdiffa.dat`, `isolr-2ch-spindown-isoupdiffb.dat`, `isolr-2ch-spinup-isodowndiffa.dat`, `isolr-2ch-spinup-isodowndiffb.dat`, `isolr-2ch-spindown-isodowndiffa.dat`, `isolr-2ch-spindown-isodowndiffb.dat`. -/
def fblocks_ISOLR_2ch : List FBlock := [
  ⟨[1, 1, 1], 0, 0, [(1,9), (2,13), (3,7), (4,9), (6,1), (6,4), (8,5), (10,2), (10,15), (11,16), (14,12), (15,13)]⟩,
  ⟨[1, 1, 1], 1, 0, [(1,9), (2,13), (3,7), (4,9), (6,1), (6,4), (8,5), (10,2), (10,15), (11,16), (14,12), (15,13)]⟩,
  ⟨[1, -1, 1], 0, 0, [(1,7), (2,11), (4,7), (5,9), (6,3), (8,1), (8,4), (12,2), (12,15), (13,16), (14,10), (15,11)]⟩,
  ⟨[1, -1, 1], 1, 0, [(1,7), (2,11), (4,7), (5,9), (6,3), (8,1), (8,4), (12,2), (12,15), (13,16), (14,10), (15,11)]⟩,
  ⟨[-1, 1, 1], 0, 0, [(1,8), (2,12), (3,6), (4,8), (7,1), (7,4), (9,5), (10,14), (11,2), (11,15), (15,12), (16,13)]⟩,
  ⟨[-1, 1, 1], 1, 0, [(1,8), (2,12), (3,6), (4,8), (7,1), (7,4), (9,5), (10,14), (11,2), (11,15), (15,12), (16,13)]⟩,
  ⟨[-1, -1, 1], 0, 0, [(1,6), (2,10), (4,6), (5,8), (7,3), (9,1), (9,4), (12,14), (13,2), (13,15), (15,10), (16,11)]⟩,
  ⟨[-1, -1, 1], 1, 0, [(1,6), (2,10), (4,6), (5,8), (7,3), (9,1), (9,4), (12,14), (13,2), (13,15), (15,10), (16,11)]⟩,
  ⟨[1, 1, -1], 0, 0, [(1,13), (2,9), (3,11), (4,13), (6,2), (6,15), (7,16), (10,1), (10,4), (12,5), (14,8), (15,9)]⟩,
  ⟨[1, 1, -1], 1, 0, [(1,13), (2,9), (3,11), (4,13), (6,2), (6,15), (7,16), (10,1), (10,4), (12,5), (14,8), (15,9)]⟩,
  ⟨[1, -1, -1], 0, 0, [(1,11), (2,7), (4,11), (5,13), (8,2), (8,15), (9,16), (10,3), (12,1), (12,4), (14,6), (15,7)]⟩,
  ⟨[1, -1, -1], 1, 0, [(1,11), (2,7), (4,11), (5,13), (8,2), (8,15), (9,16), (10,3), (12,1), (12,4), (14,6), (15,7)]⟩,
  ⟨[-1, 1, -1], 0, 0, [(1,12), (2,8), (3,10), (4,12), (6,14), (7,2), (7,15), (11,1), (11,4), (13,5), (15,8), (16,9)]⟩,
  ⟨[-1, 1, -1], 1, 0, [(1,12), (2,8), (3,10), (4,12), (6,14), (7,2), (7,15), (11,1), (11,4), (13,5), (15,8), (16,9)]⟩,
  ⟨[-1, -1, -1], 0, 0, [(1,10), (2,6), (4,10), (5,12), (8,14), (9,2), (9,15), (11,3), (13,1), (13,4), (15,6), (16,7)]⟩,
  ⟨[-1, -1, -1], 1, 0, [(1,10), (2,6), (4,10), (5,12), (8,14), (9,2), (9,15), (11,3), (13,1), (13,4), (15,6), (16,7)]⟩]

/-- `make_matrix` in `sym-ISOLR-impl.hpp`: `isolr/isolr-2ch-offdiag.dat`. -/
def ham_ISOLR_2ch_plain : HamTable where
  variant := .plain
  hops := [
    ⟨.offdiag, 0, 0, [(1,6), (1,7), (1,8), (1,9), (1,10), (1,11), (1,12), (1,13), (2,6), (2,7), (2,8), (2,9), (2,10), (2,11),
    (2,12), (2,13), (3,6), (3,7), (3,10), (3,11), (4,6), (4,7), (4,8), (4,9), (4,10), (4,11), (4,12), (4,13),
    (5,8), (5,9), (5,12), (5,13), (6,14), (6,15), (7,15), (7,16), (8,14), (8,15), (9,15), (9,16), (10,14), (10,15),
    (11,15), (11,16), (12,14), (12,15), (13,15), (13,16)]⟩,
    ⟨.offdiag, 1, 0, [(1,6), (1,7), (1,8), (1,9), (1,10), (1,11), (1,12), (1,13), (2,6), (2,7), (2,8), (2,9), (2,10), (2,11),
    (2,12), (2,13), (3,6), (3,7), (3,10), (3,11), (4,6), (4,7), (4,8), (4,9), (4,10), (4,11), (4,12), (4,13),
    (5,8), (5,9), (5,12), (5,13), (6,14), (6,15), (7,15), (7,16), (8,14), (8,15), (9,15), (9,16), (10,14), (10,15),
    (11,15), (11,16), (12,14), (12,15), (13,15), (13,16)]⟩]
  siteHops := []
  occupations := [
]

/-- Class `SymmetryISOLR` with 2 channel(s). -/
def ham_ISOLR_2ch : Ham where
  builtin := ⟨"ISOLR", 2, fields_ISOLR, tab_ISOLR_2ch⟩
  blocks := fblocks_ISOLR_2ch
  invarF := none
  guard := .plain
  variants := [ham_ISOLR_2ch_plain]

/-- `recalc_irreduc` in `nrg-recalc-ISO2LR.hpp`: `iso2lr-2ch-spinup-isoupa.dat`, `iso2lr-2ch-spinup-isoupb.dat`, `iso2lr-2ch-spindown-isoupa.dat`, `iso2lr-2ch-spindown-isoupb.dat`, `iso2lr-2ch-spinup-isodowna.dat`, `iso2lr-2ch-spinup-isodownb.dat`, `iso2lr-2ch-spindown-isodowna.dat`, `iso2lr-2ch-spindown-isodownb.dat`, `iso2lr-2ch-spinup-isoupdiffa.dat`, `iso2lr-2ch-spinup-isoupdiffb.dat`, `iso2lr-2ch-spindown-isoupdiffa.dat`, `iso2lr-2ch-spindown-isoupdiffb.dat`, `iso2lr-2ch-spinup-isodowndiffa.dat`, `iso2lr-2ch-spinup-isodowndiffb.dat`, `iso2lr-2ch-spindown-isodowndiffa.dat`, `iso2lr-2ch-spindown-isodowndiffb.dat`. -/
def fblocks_ISO2LR_2ch : List FBlock := [
  ⟨[1, 1, 1], 0, 0, [(1,13), (2,13), (3,7), (4,9), (6,4), (8,5), (10,1), (10,2), (10,15), (11,16), (14,12), (15,13)]⟩,
  ⟨[1, 1, 1], 1, 0, [(1,13), (2,13), (3,7), (4,9), (6,4), (8,5), (10,1), (10,2), (10,15), (11,16), (14,12), (15,13)]⟩,
  ⟨[1, -1, 1], 0, 0, [(1,11), (2,11), (4,7), (5,9), (6,3), (8,4), (12,1), (12,2), (12,15), (13,16), (14,10), (15,11)]⟩,
  ⟨[1, -1, 1], 1, 0, [(1,11), (2,11), (4,7), (5,9), (6,3), (8,4), (12,1), (12,2), (12,15), (13,16), (14,10), (15,11)]⟩,
  ⟨[-1, 1, 1], 0, 0, [(1,12), (2,12), (3,6), (4,8), (7,4), (9,5), (10,14), (11,1), (11,2), (11,15), (15,12), (16,13)]⟩,
  ⟨[-1, 1, 1], 1, 0, [(1,12), (2,12), (3,6), (4,8), (7,4), (9,5), (10,14), (11,1), (11,2), (11,15), (15,12), (16,13)]⟩,
  ⟨[-1, -1, 1], 0, 0, [(1,10), (2,10), (4,6), (5,8), (7,3), (9,4), (12,14), (13,1), (13,2), (13,15), (15,10), (16,11)]⟩,
  ⟨[-1, -1, 1], 1, 0, [(1,10), (2,10), (4,6), (5,8), (7,3), (9,4), (12,14), (13,1), (13,2), (13,15), (15,10), (16,11)]⟩,
  ⟨[1, 1, -1], 0, 0, [(1,9), (2,9), (3,11), (4,13), (6,1), (6,2), (6,15), (7,16), (10,4), (12,5), (14,8), (15,9)]⟩,
  ⟨[1, 1, -1], 1, 0, [(1,9), (2,9), (3,11), (4,13), (6,1), (6,2), (6,15), (7,16), (10,4), (12,5), (14,8), (15,9)]⟩,
  ⟨[1, -1, -1], 0, 0, [(1,7), (2,7), (4,11), (5,13), (8,1), (8,2), (8,15), (9,16), (10,3), (12,4), (14,6), (15,7)]⟩,
  ⟨[1, -1, -1], 1, 0, [(1,7), (2,7), (4,11), (5,13), (8,1), (8,2), (8,15), (9,16), (10,3), (12,4), (14,6), (15,7)]⟩,
  ⟨[-1, 1, -1], 0, 0, [(1,8), (2,8), (3,10), (4,12), (6,14), (7,1), (7,2), (7,15), (11,4), (13,5), (15,8), (16,9)]⟩,
  ⟨[-1, 1, -1], 1, 0, [(1,8), (2,8), (3,10), (4,12), (6,14), (7,1), (7,2), (7,15), (11,4), (13,5), (15,8), (16,9)]⟩,
  ⟨[-1, -1, -1], 0, 0, [(1,6), (2,6), (4,10), (5,12), (8,14), (9,1), (9,2), (9,15), (11,3), (13,4), (15,6), (16,7)]⟩,
  ⟨[-1, -1, -1], 1, 0, [(1,6), (2,6), (4,10), (5,12), (8,14), (9,1), (9,2), (9,15), (11,3), (13,4), (15,6), (16,7)]⟩]

/-- `make_matrix` in `sym-ISOLR-impl.hpp`: `iso2lr/iso2lr-2ch-offdiag.dat`. -/
def ham_ISO2LR_2ch_plain : HamTable where
  variant := .plain
  hops := [
    ⟨.offdiag, 0, 0, [(1,6), (1,7), (1,8), (1,9), (1,10), (1,11), (1,12), (1,13), (2,6), (2,7), (2,8), (2,9), (2,10), (2,11),
    (2,12), (2,13), (3,6), (3,7), (3,10), (3,11), (4,6), (4,7), (4,8), (4,9), (4,10), (4,11), (4,12), (4,13),
    (5,8), (5,9), (5,12), (5,13), (6,14), (6,15), (7,15), (7,16), (8,14), (8,15), (9,15), (9,16), (10,14), (10,15),
    (11,15), (11,16), (12,14), (12,15), (13,15), (13,16)]⟩,
    ⟨.offdiag, 1, 0, [(1,6), (1,7), (1,8), (1,9), (1,10), (1,11), (1,12), (1,13), (2,6), (2,7), (2,8), (2,9), (2,10), (2,11),
    (2,12), (2,13), (3,6), (3,7), (3,10), (3,11), (4,6), (4,7), (4,8), (4,9), (4,10), (4,11), (4,12), (4,13),
    (5,8), (5,9), (5,12), (5,13), (6,14), (6,15), (7,15), (7,16), (8,14), (8,15), (9,15), (9,16), (10,14), (10,15),
    (11,15), (11,16), (12,14), (12,15), (13,15), (13,16)]⟩]
  siteHops := []
  occupations := [
]

/-- Class `SymmetryISO2LR` with 2 channel(s). -/
def ham_ISO2LR_2ch : Ham where
  builtin := ⟨"ISO2LR", 2, fields_ISOLR, tab_ISO2LR_2ch⟩
  blocks := fblocks_ISO2LR_2ch
  invarF := none
  guard := .plain
  variants := [ham_ISO2LR_2ch_plain]

/-- `recalc_irreduc` in `nrg-recalc-ISOSZ.hpp`: `isosz-1ch-spinup-isoupa.dat`, `isosz-1ch-spindown-isoupa.dat`, `isosz-1ch-spinup-isodowna.dat`, `isosz-1ch-spindown-isodowna.dat`. -/
def fblocks_ISOSZ_1ch : List FBlock := [
  ⟨[1, 1], 0, 0, [(1,4), (3,2)]⟩,
  ⟨[1, -1], 0, 0, [(1,3), (4,2)]⟩,
  ⟨[-1, 1], 0, 0, [(2,4), (3,1)]⟩,
  ⟨[-1, -1], 0, 0, [(2,3), (4,1)]⟩]

/-- `make_matrix` in `sym-ISOSZ-impl.hpp`: `isosz/isosz-1ch-offdiag.dat`. -/
def ham_ISOSZ_1ch_plain : HamTable where
  variant := .plain
  hops := [
    ⟨.offdiag, 0, 0, [(1,3), (1,4), (2,3), (2,4)]⟩]
  siteHops := []
  occupations := [
]

/-- Class `SymmetryISOSZ` with 1 channel(s). -/
def ham_ISOSZ_1ch : Ham where
  builtin := ⟨"ISOSZ", 1, fields_ISOSZ, tab_ISOSZ_1ch⟩
  blocks := fblocks_ISOSZ_1ch
  invarF := none
  guard := .plain
  variants := [ham_ISOSZ_1ch_plain]

/-- `recalc_irreduc` in `nrg-recalc-ISOSZ.hpp`: `isosz-2ch-spinup-isoupa.dat`, `isosz-2ch-spinup-isoupb.dat`, `isosz-2ch-spindown-isoupa.dat`, `isosz-2ch-spindown-isoupb.dat`, `isosz-2ch-spinup-isodowna.dat`, `isosz-2ch-spinup-isodownb.dat`, `isosz-2ch-spindown-isodowna.dat`, `isosz-2ch-spindown-isodownb.dat`. -/
def fblocks_ISOSZ_2ch : List FBlock := [
  ⟨[1, 1], 0, 0, [(1,8), (2,9), (4,2), (4,13), (5,3), (6,14), (10,16), (12,7), (13,9), (15,11)]⟩,
  ⟨[1, 1], 1, 0, [(1,10), (2,11), (4,15), (6,2), (6,13), (7,3), (8,16), (12,5), (13,11), (14,9)]⟩,
  ⟨[1, -1], 0, 0, [(1,4), (2,5), (6,12), (8,2), (8,13), (9,3), (10,15), (13,5), (14,7), (16,11)]⟩,
  ⟨[1, -1], 1, 0, [(1,6), (2,7), (4,12), (8,14), (10,2), (10,13), (11,3), (13,7), (15,5), (16,9)]⟩,
  ⟨[-1, 1], 0, 0, [(2,8), (3,9), (4,1), (5,2), (5,13), (7,14), (11,16), (12,6), (13,8), (15,10)]⟩,
  ⟨[-1, 1], 1, 0, [(2,10), (3,11), (5,15), (6,1), (7,2), (7,13), (9,16), (12,4), (13,10), (14,8)]⟩,
  ⟨[-1, -1], 0, 0, [(2,4), (3,5), (7,12), (8,1), (9,2), (9,13), (11,15), (13,4), (14,6), (16,10)]⟩,
  ⟨[-1, -1], 1, 0, [(2,6), (3,7), (5,12), (9,14), (10,1), (11,2), (11,13), (13,6), (15,4), (16,8)]⟩]

/-- `make_matrix` in `sym-ISOSZ-impl.hpp`: `isosz/isosz-2ch-offdiag.dat`. -/
def ham_ISOSZ_2ch_plain : HamTable where
  variant := .plain
  hops := [
    ⟨.offdiag, 0, 0, [(1,4), (1,8), (2,4), (2,5), (2,8), (2,9), (3,5), (3,9), (4,13), (5,13), (6,12), (6,14), (7,12), (7,14),
    (8,13), (9,13), (10,15), (10,16), (11,15), (11,16)]⟩,
    ⟨.offdiag, 1, 0, [(1,6), (1,10), (2,6), (2,7), (2,10), (2,11), (3,7), (3,11), (4,12), (4,15), (5,12), (5,15), (6,13), (7,13),
    (8,14), (8,16), (9,14), (9,16), (10,13), (11,13)]⟩]
  siteHops := []
  occupations := [
]

/-- Class `SymmetryISOSZ` with 2 channel(s). -/
def ham_ISOSZ_2ch : Ham where
  builtin := ⟨"ISOSZ", 2, fields_ISOSZ, tab_ISOSZ_2ch⟩
  blocks := fblocks_ISOSZ_2ch
  invarF := none
  guard := .plain
  variants := [ham_ISOSZ_2ch_plain]

/-- `recalc_irreduc` in `nrg-recalc-ISOSZLR.hpp`: `isoszlr-2ch-spinup-isoupa.dat`, `isoszlr-2ch-spinup-isoupb.dat`, `isoszlr-2ch-spindown-isoupa.dat`, `isoszlr-2ch-spindown-isoupb.dat`, `isoszlr-2ch-spinup-isodowna.dat`, `isoszlr-2ch-spinup-isodownb.dat`, `isoszlr-2ch-spindown-isodowna.dat`, `isoszlr-2ch-spindown-isodownb.dat`, `isoszlr-2ch-spinup-isoupdiffa.dat`, `isoszlr-2ch-spinup-isoupdiffb.dat`, `isoszlr-2ch-spindown-isoupdiffa.dat`, `isoszlr-2ch-spindown-isoupdiffb.dat`, `isoszlr-2ch-spinup-isodowndiffa.dat`, `isoszlr-2ch-spinup-isodowndiffb.dat`, `isoszlr-2ch-spindown-isodowndiffa.dat`, `isoszlr-2ch-spindown-isodowndiffb.dat`. -/
def fblocks_ISOSZLR_2ch : List FBlock := [
  ⟨[1, 1, 1], 0, 0, [(2,7), (3,7), (4,9), (5,11), (6,1), (10,2), (10,3), (12,4), (12,15), (13,16), (14,8), (15,9)]⟩,
  ⟨[1, 1, 1], 1, 0, [(2,7), (3,7), (4,9), (5,11), (6,1), (10,2), (10,3), (12,4), (12,15), (13,16), (14,8), (15,9)]⟩,
  ⟨[1, -1, 1], 0, 0, [(1,7), (2,11), (3,11), (4,13), (6,2), (6,3), (8,4), (8,15), (9,16), (10,5), (14,12), (15,13)]⟩,
  ⟨[1, -1, 1], 1, 0, [(1,7), (2,11), (3,11), (4,13), (6,2), (6,3), (8,4), (8,15), (9,16), (10,5), (14,12), (15,13)]⟩,
  ⟨[-1, 1, 1], 0, 0, [(2,6), (3,6), (4,8), (5,10), (7,1), (11,2), (11,3), (12,14), (13,4), (13,15), (15,8), (16,9)]⟩,
  ⟨[-1, 1, 1], 1, 0, [(2,6), (3,6), (4,8), (5,10), (7,1), (11,2), (11,3), (12,14), (13,4), (13,15), (15,8), (16,9)]⟩,
  ⟨[-1, -1, 1], 0, 0, [(1,6), (2,10), (3,10), (4,12), (7,2), (7,3), (8,14), (9,4), (9,15), (11,5), (15,12), (16,13)]⟩,
  ⟨[-1, -1, 1], 1, 0, [(1,6), (2,10), (3,10), (4,12), (7,2), (7,3), (8,14), (9,4), (9,15), (11,5), (15,12), (16,13)]⟩,
  ⟨[1, 1, -1], 0, 0, [(2,9), (3,9), (4,7), (5,13), (8,1), (10,4), (10,15), (11,16), (12,2), (12,3), (14,6), (15,7)]⟩,
  ⟨[1, 1, -1], 1, 0, [(2,9), (3,9), (4,7), (5,13), (8,1), (10,4), (10,15), (11,16), (12,2), (12,3), (14,6), (15,7)]⟩,
  ⟨[1, -1, -1], 0, 0, [(1,9), (2,13), (3,13), (4,11), (6,4), (6,15), (7,16), (8,2), (8,3), (12,5), (14,10), (15,11)]⟩,
  ⟨[1, -1, -1], 1, 0, [(1,9), (2,13), (3,13), (4,11), (6,4), (6,15), (7,16), (8,2), (8,3), (12,5), (14,10), (15,11)]⟩,
  ⟨[-1, 1, -1], 0, 0, [(2,8), (3,8), (4,6), (5,12), (9,1), (10,14), (11,4), (11,15), (13,2), (13,3), (15,6), (16,7)]⟩,
  ⟨[-1, 1, -1], 1, 0, [(2,8), (3,8), (4,6), (5,12), (9,1), (10,14), (11,4), (11,15), (13,2), (13,3), (15,6), (16,7)]⟩,
  ⟨[-1, -1, -1], 0, 0, [(1,8), (2,12), (3,12), (4,10), (6,14), (7,4), (7,15), (9,2), (9,3), (13,5), (15,10), (16,11)]⟩,
  ⟨[-1, -1, -1], 1, 0, [(1,8), (2,12), (3,12), (4,10), (6,14), (7,4), (7,15), (9,2), (9,3), (13,5), (15,10), (16,11)]⟩]

/-- `make_matrix` in `sym-ISOSZLR-impl.hpp`: `isoszlr/isoszlr-2ch-offdiag.dat`. -/
def ham_ISOSZLR_2ch_plain : HamTable where
  variant := .plain
  hops := [
    ⟨.offdiag, 0, 0, [(1,6), (1,7), (1,8), (1,9), (2,6), (2,7), (2,8), (2,9), (2,10), (2,11), (2,12), (2,13), (3,6), (3,7),
    (3,8), (3,9), (3,10), (3,11), (3,12), (3,13), (4,6), (4,7), (4,8), (4,9), (4,10), (4,11), (4,12), (4,13),
    (5,10), (5,11), (5,12), (5,13), (6,14), (6,15), (7,15), (7,16), (8,14), (8,15), (9,15), (9,16), (10,14), (10,15),
    (11,15), (11,16), (12,14), (12,15), (13,15), (13,16)]⟩,
    ⟨.offdiag, 1, 0, [(1,6), (1,7), (1,8), (1,9), (2,6), (2,7), (2,8), (2,9), (2,10), (2,11), (2,12), (2,13), (3,6), (3,7),
    (3,8), (3,9), (3,10), (3,11), (3,12), (3,13), (4,6), (4,7), (4,8), (4,9), (4,10), (4,11), (4,12), (4,13),
    (5,10), (5,11), (5,12), (5,13), (6,14), (6,15), (7,15), (7,16), (8,14), (8,15), (9,15), (9,16), (10,14), (10,15),
    (11,15), (11,16), (12,14), (12,15), (13,15), (13,16)]⟩]
  siteHops := []
  occupations := [
]

/-- Class `SymmetryISOSZLR` with 2 channel(s). -/
def ham_ISOSZLR_2ch : Ham where
  builtin := ⟨"ISOSZLR", 2, fields_ISOSZLR, tab_ISOSZLR_2ch⟩
  blocks := fblocks_ISOSZLR_2ch
  invarF := none
  guard := .plain
  variants := [ham_ISOSZLR_2ch_plain]

/-- `recalc_irreduc` in `nrg-recalc-NONE.hpp`: `none-1ch-a-CR-DO.dat`, `none-1ch-a-CR-UP.dat`. -/
def fblocks_NONE_1ch : List FBlock := [
  ⟨[0], 0, 0, [(2,1), (4,3)]⟩,
  ⟨[0], 0, 1, [(3,1), (4,2)]⟩]

/-- `make_matrix_nonpolarized` in `sym-NONE-impl.hpp`: `none/none-1ch-offdiag-CR-UP.dat`, `none/none-1ch-offdiag-CR-DO.dat`, `none/none-1ch-diag.dat`, `none/none-1ch-Ixtot.dat`. -/
def ham_NONE_1ch_nonpolarized : HamTable where
  variant := .nonpolarized
  hops := [
    ⟨.crUp, 0, 1, [(1,3), (2,4)]⟩,
    ⟨.crDo, 0, 0, [(1,2), (3,4)]⟩]
  siteHops := [(1,4), (4,1)]
  occupations := [
    ⟨.both, 0, [(1,0), (2,2), (3,2), (4,4)]⟩]

/-- `make_matrix_polarized` in `sym-NONE-impl.hpp`: `none/none-1ch-offdiag-CR-UP.dat`, `none/none-1ch-offdiag-CR-DO.dat`, `none/none-1ch-diag-UP.dat`, `none/none-1ch-diag-DOWN.dat`, `none/none-1ch-Ixtot.dat`. -/
def ham_NONE_1ch_polarized : HamTable where
  variant := .polarized
  hops := [
    ⟨.crUp, 0, 1, [(1,3), (2,4)]⟩,
    ⟨.crDo, 0, 0, [(1,2), (3,4)]⟩]
  siteHops := [(1,4), (4,1)]
  occupations := [
    ⟨.up, 0, [(1,0), (2,0), (3,2), (4,2)]⟩,
    ⟨.down, 0, [(1,0), (2,2), (3,0), (4,2)]⟩]

/-- Class `SymmetryNONE` with 1 channel(s). -/
def ham_NONE_1ch : Ham where
  builtin := ⟨"NONE", 1, fields_NONE, tab_NONE_1ch⟩
  blocks := fblocks_NONE_1ch
  invarF := none
  guard := .plain
  variants := [ham_NONE_1ch_nonpolarized, ham_NONE_1ch_polarized]

/-- `recalc_irreduc` in `nrg-recalc-NONE.hpp`: `none-2ch-a-CR-DO.dat`, `none-2ch-b-CR-DO.dat`, `none-2ch-a-CR-UP.dat`, `none-2ch-b-CR-UP.dat`. -/
def fblocks_NONE_2ch : List FBlock := [
  ⟨[0], 0, 0, [(5,1), (6,2), (7,3), (8,4), (13,9), (14,10), (15,11), (16,12)]⟩,
  ⟨[0], 1, 0, [(2,1), (4,3), (6,5), (8,7), (10,9), (12,11), (14,13), (16,15)]⟩,
  ⟨[0], 0, 1, [(9,1), (10,2), (11,3), (12,4), (13,5), (14,6), (15,7), (16,8)]⟩,
  ⟨[0], 1, 1, [(3,1), (4,2), (7,5), (8,6), (11,9), (12,10), (15,13), (16,14)]⟩]

/-- `make_matrix_nonpolarized` in `sym-NONE-impl.hpp`: `none/none-2ch-offdiag-CR-UP.dat`, `none/none-2ch-offdiag-CR-DO.dat`, `none/none-2ch-diag.dat`, `none/none-2ch-Ixtot.dat`. -/
def ham_NONE_2ch_nonpolarized : HamTable where
  variant := .nonpolarized
  hops := [
    ⟨.crUp, 0, 1, [(1,9), (2,10), (3,11), (4,12), (5,13), (6,14), (7,15), (8,16)]⟩,
    ⟨.crUp, 1, 1, [(1,3), (2,4), (5,7), (6,8), (9,11), (10,12), (13,15), (14,16)]⟩,
    ⟨.crDo, 0, 0, [(1,5), (2,6), (3,7), (4,8), (9,13), (10,14), (11,15), (12,16)]⟩,
    ⟨.crDo, 1, 0, [(1,2), (3,4), (5,6), (7,8), (9,10), (11,12), (13,14), (15,16)]⟩]
  siteHops := [(1,13), (2,14), (3,15), (4,16), (13,1), (14,2), (15,3), (16,4), (1,4), (4,1), (5,8), (8,5), (9,12), (12,9),
    (13,16), (16,13)]
  occupations := [
    ⟨.both, 0, [(1,0), (2,0), (3,0), (4,0), (5,2), (6,2), (7,2), (8,2), (9,2), (10,2), (11,2), (12,2), (13,4), (14,4),
    (15,4), (16,4)]⟩,
    ⟨.both, 1, [(1,0), (2,2), (3,2), (4,4), (5,0), (6,2), (7,2), (8,4), (9,0), (10,2), (11,2), (12,4), (13,0), (14,2),
    (15,2), (16,4)]⟩]

/-- `make_matrix_polarized` in `sym-NONE-impl.hpp`: `none/none-2ch-offdiag-CR-UP.dat`, `none/none-2ch-offdiag-CR-DO.dat`, `none/none-2ch-diag-UP.dat`, `none/none-2ch-diag-DOWN.dat`, `none/none-2ch-Ixtot.dat`. -/
def ham_NONE_2ch_polarized : HamTable where
  variant := .polarized
  hops := [
    ⟨.crUp, 0, 1, [(1,9), (2,10), (3,11), (4,12), (5,13), (6,14), (7,15), (8,16)]⟩,
    ⟨.crUp, 1, 1, [(1,3), (2,4), (5,7), (6,8), (9,11), (10,12), (13,15), (14,16)]⟩,
    ⟨.crDo, 0, 0, [(1,5), (2,6), (3,7), (4,8), (9,13), (10,14), (11,15), (12,16)]⟩,
    ⟨.crDo, 1, 0, [(1,2), (3,4), (5,6), (7,8), (9,10), (11,12), (13,14), (15,16)]⟩]
  siteHops := [(1,13), (2,14), (3,15), (4,16), (13,1), (14,2), (15,3), (16,4), (1,4), (4,1), (5,8), (8,5), (9,12), (12,9),
    (13,16), (16,13)]
  occupations := [
    ⟨.up, 0, [(1,0), (2,0), (3,0), (4,0), (5,0), (6,0), (7,0), (8,0), (9,2), (10,2), (11,2), (12,2), (13,2), (14,2),
    (15,2), (16,2)]⟩,
    ⟨.up, 1, [(1,0), (2,0), (3,2), (4,2), (5,0), (6,0), (7,2), (8,2), (9,0), (10,0), (11,2), (12,2), (13,0), (14,0),
    (15,2), (16,2)]⟩,
    ⟨.down, 0, [(1,0), (2,0), (3,0), (4,0), (5,2), (6,2), (7,2), (8,2), (9,0), (10,0), (11,0), (12,0), (13,2), (14,2),
    (15,2), (16,2)]⟩,
    ⟨.down, 1, [(1,0), (2,2), (3,0), (4,2), (5,0), (6,2), (7,0), (8,2), (9,0), (10,2), (11,0), (12,2), (13,0), (14,2),
    (15,0), (16,2)]⟩]

/-- Class `SymmetryNONE` with 2 channel(s). -/
def ham_NONE_2ch : Ham where
  builtin := ⟨"NONE", 2, fields_NONE, tab_NONE_2ch⟩
  blocks := fblocks_NONE_2ch
  invarF := none
  guard := .plain
  variants := [ham_NONE_2ch_nonpolarized, ham_NONE_2ch_polarized]

/-- `recalc_irreduc` in `nrg-recalc-P.hpp`: `p-1ch-a-CR-DO.dat`, `p-1ch-a-CR-UP.dat`, `p-1ch-a-AN-DO.dat`, `p-1ch-a-AN-UP.dat`. -/
def fblocks_P_1ch : List FBlock := [
  ⟨[-1], 0, 0, [(1,3), (4,2)]⟩,
  ⟨[-1], 0, 1, [(2,3), (4,1)]⟩,
  ⟨[-1], 0, 2, [(2,4), (3,1)]⟩,
  ⟨[-1], 0, 3, [(1,4), (3,2)]⟩]

/-- `make_matrix_nonpolarized` in `sym-P-impl.hpp`: `p/p-1ch-offdiag-CR-UP.dat`, `p/p-1ch-offdiag-CR-DO.dat`, `p/p-1ch-offdiag-AN-UP.dat`, `p/p-1ch-offdiag-AN-DO.dat`, `p/p-1ch-diag.dat`, `p/p-1ch-Ixtot.dat`. -/
def ham_P_1ch_nonpolarized : HamTable where
  variant := .nonpolarized
  hops := [
    ⟨.crUp, 0, 1, [(1,4)]⟩,
    ⟨.crDo, 0, 0, [(2,4)]⟩,
    ⟨.anUp, 0, 3, [(2,3)]⟩,
    ⟨.anDo, 0, 2, [(1,3)]⟩]
  siteHops := [(3,4), (4,3)]
  occupations := [
    ⟨.both, 0, [(1,2), (2,2), (3,0), (4,4)]⟩]

/-- `make_matrix_polarized` in `sym-P-impl.hpp`: `p/p-1ch-offdiag-CR-UP.dat`, `p/p-1ch-offdiag-CR-DO.dat`, `p/p-1ch-offdiag-AN-UP.dat`, `p/p-1ch-offdiag-AN-DO.dat`, `p/p-1ch-diag-UP.dat`, `p/p-1ch-diag-DOWN.dat`, `p/p-1ch-Ixtot.dat`. -/
def ham_P_1ch_polarized : HamTable where
  variant := .polarized
  hops := [
    ⟨.crUp, 0, 1, [(1,4)]⟩,
    ⟨.crDo, 0, 0, [(2,4)]⟩,
    ⟨.anUp, 0, 3, [(2,3)]⟩,
    ⟨.anDo, 0, 2, [(1,3)]⟩]
  siteHops := [(3,4), (4,3)]
  occupations := [
    ⟨.up, 0, [(1,0), (2,2), (3,0), (4,2)]⟩,
    ⟨.down, 0, [(1,2), (2,0), (3,0), (4,2)]⟩]

/-- Class `SymmetryP` with 1 channel(s). -/
def ham_P_1ch : Ham where
  builtin := ⟨"P", 1, fields_P, tab_P_1ch⟩
  blocks := fblocks_P_1ch
  invarF := none
  guard := .plain
  variants := [ham_P_1ch_nonpolarized, ham_P_1ch_polarized]

/-- `recalc_irreduc` in `nrg-recalc-P.hpp`: `p-2ch-a-CR-DO.dat`, `p-2ch-b-CR-DO.dat`, `p-2ch-a-CR-UP.dat`, `p-2ch-b-CR-UP.dat`, `p-2ch-a-AN-DO.dat`, `p-2ch-b-AN-DO.dat`, `p-2ch-a-AN-UP.dat`, `p-2ch-b-AN-UP.dat`. -/
def fblocks_P_2ch : List FBlock := [
  ⟨[-1], 0, 0, [(3,9), (4,10), (7,12), (8,14), (11,1), (13,2), (15,5), (16,6)]⟩,
  ⟨[-1], 1, 0, [(2,10), (3,11), (5,12), (8,16), (9,1), (13,4), (14,6), (15,7)]⟩,
  ⟨[-1], 0, 1, [(5,9), (6,10), (7,11), (8,13), (12,1), (14,2), (15,3), (16,4)]⟩,
  ⟨[-1], 1, 1, [(2,9), (4,11), (6,12), (8,15), (10,1), (13,3), (14,5), (16,7)]⟩,
  ⟨[-1], 0, 2, [(1,11), (2,13), (5,15), (6,16), (9,3), (10,4), (12,7), (14,8)]⟩,
  ⟨[-1], 1, 2, [(1,9), (4,13), (6,14), (7,15), (10,2), (11,3), (12,5), (16,8)]⟩,
  ⟨[-1], 0, 3, [(1,12), (2,14), (3,15), (4,16), (9,5), (10,6), (11,7), (13,8)]⟩,
  ⟨[-1], 1, 3, [(1,10), (3,13), (5,14), (7,16), (9,2), (11,4), (12,6), (15,8)]⟩]

/-- `make_matrix_nonpolarized` in `sym-P-impl.hpp`: `p/p-2ch-offdiag-CR-UP.dat`, `p/p-2ch-offdiag-CR-DO.dat`, `p/p-2ch-offdiag-AN-UP.dat`, `p/p-2ch-offdiag-AN-DO.dat`, `p/p-2ch-diag.dat`, `p/p-2ch-Ixtot.dat`. -/
def ham_P_2ch_nonpolarized : HamTable where
  variant := .nonpolarized
  hops := [
    ⟨.crUp, 0, 1, [(1,12), (2,14), (3,15), (4,16)]⟩,
    ⟨.crUp, 1, 1, [(1,10), (3,13), (5,14), (7,16)]⟩,
    ⟨.crDo, 0, 0, [(1,11), (2,13), (5,15), (6,16)]⟩,
    ⟨.crDo, 1, 0, [(1,9), (4,13), (6,14), (7,15)]⟩,
    ⟨.anUp, 0, 3, [(5,9), (6,10), (7,11), (8,13)]⟩,
    ⟨.anUp, 1, 3, [(2,9), (4,11), (6,12), (8,15)]⟩,
    ⟨.anDo, 0, 2, [(3,9), (4,10), (7,12), (8,14)]⟩,
    ⟨.anDo, 1, 2, [(2,10), (3,11), (5,12), (8,16)]⟩]
  siteHops := [(1,7), (2,8), (7,1), (8,2), (9,15), (10,16), (15,9), (16,10), (1,2), (2,1), (7,8), (8,7), (11,13), (12,14),
    (13,11), (14,12)]
  occupations := [
    ⟨.both, 0, [(1,0), (2,0), (3,2), (4,2), (5,2), (6,2), (7,4), (8,4), (9,0), (10,0), (11,2), (12,2), (13,2), (14,2),
    (15,4), (16,4)]⟩,
    ⟨.both, 1, [(1,0), (2,4), (3,2), (4,2), (5,2), (6,2), (7,0), (8,4), (9,2), (10,2), (11,0), (12,0), (13,4), (14,4),
    (15,2), (16,2)]⟩]

/-- `make_matrix_polarized` in `sym-P-impl.hpp`: `p/p-2ch-offdiag-CR-UP.dat`, `p/p-2ch-offdiag-CR-DO.dat`, `p/p-2ch-offdiag-AN-UP.dat`, `p/p-2ch-offdiag-AN-DO.dat`, `p/p-2ch-diag-UP.dat`, `p/p-2ch-diag-DOWN.dat`, `p/p-2ch-Ixtot.dat`. -/
def ham_P_2ch_polarized : HamTable where
  variant := .polarized
  hops := [
    ⟨.crUp, 0, 1, [(1,12), (2,14), (3,15), (4,16)]⟩,
    ⟨.crUp, 1, 1, [(1,10), (3,13), (5,14), (7,16)]⟩,
    ⟨.crDo, 0, 0, [(1,11), (2,13), (5,15), (6,16)]⟩,
    ⟨.crDo, 1, 0, [(1,9), (4,13), (6,14), (7,15)]⟩,
    ⟨.anUp, 0, 3, [(5,9), (6,10), (7,11), (8,13)]⟩,
    ⟨.anUp, 1, 3, [(2,9), (4,11), (6,12), (8,15)]⟩,
    ⟨.anDo, 0, 2, [(3,9), (4,10), (7,12), (8,14)]⟩,
    ⟨.anDo, 1, 2, [(2,10), (3,11), (5,12), (8,16)]⟩]
  siteHops := [(1,7), (2,8), (7,1), (8,2), (9,15), (10,16), (15,9), (16,10), (1,2), (2,1), (7,8), (8,7), (11,13), (12,14),
    (13,11), (14,12)]
  occupations := [
    ⟨.up, 0, [(1,0), (2,0), (3,0), (4,0), (5,2), (6,2), (7,2), (8,2), (9,0), (10,0), (11,0), (12,2), (13,0), (14,2),
    (15,2), (16,2)]⟩,
    ⟨.up, 1, [(1,0), (2,2), (3,0), (4,2), (5,0), (6,2), (7,0), (8,2), (9,0), (10,2), (11,0), (12,0), (13,2), (14,2),
    (15,0), (16,2)]⟩,
    ⟨.down, 0, [(1,0), (2,0), (3,2), (4,2), (5,0), (6,0), (7,2), (8,2), (9,0), (10,0), (11,2), (12,0), (13,2), (14,0),
    (15,2), (16,2)]⟩,
    ⟨.down, 1, [(1,0), (2,2), (3,2), (4,0), (5,2), (6,0), (7,0), (8,2), (9,2), (10,0), (11,0), (12,0), (13,2), (14,2),
    (15,2), (16,0)]⟩]

/-- Class `SymmetryP` with 2 channel(s). -/
def ham_P_2ch : Ham where
  builtin := ⟨"P", 2, fields_P, tab_P_2ch⟩
  blocks := fblocks_P_2ch
  invarF := none
  guard := .plain
  variants := [ham_P_2ch_nonpolarized, ham_P_2ch_polarized]

/-- `recalc_irreduc` in `nrg-recalc-PP.hpp`: `pp-2ch-a-CR-DO.dat`, `pp-2ch-a-CR-UP.dat`, `pp-2ch-a-AN-DO.dat`, `pp-2ch-a-AN-UP.dat`, `pp-2ch-b-CR-DO.dat`, `pp-2ch-b-CR-UP.dat`, `pp-2ch-b-AN-DO.dat`, `pp-2ch-b-AN-UP.dat`. -/
def fblocks_PP_2ch : List FBlock := [
  ⟨[-1, 1], 0, 0, [(1,9), (2,10), (5,13), (6,14), (11,3), (12,4), (15,7), (16,8)]⟩,
  ⟨[-1, 1], 0, 1, [(3,9), (4,10), (7,13), (8,14), (11,1), (12,2), (15,5), (16,6)]⟩,
  ⟨[-1, 1], 0, 2, [(3,11), (4,12), (7,15), (8,16), (9,1), (10,2), (13,5), (14,6)]⟩,
  ⟨[-1, 1], 0, 3, [(1,11), (2,12), (5,15), (6,16), (9,3), (10,4), (13,7), (14,8)]⟩,
  ⟨[1, -1], 1, 0, [(1,5), (3,7), (6,2), (8,4), (9,13), (11,15), (14,10), (16,12)]⟩,
  ⟨[1, -1], 1, 1, [(2,5), (4,7), (6,1), (8,3), (10,13), (12,15), (14,9), (16,11)]⟩,
  ⟨[1, -1], 1, 2, [(2,6), (4,8), (5,1), (7,3), (10,14), (12,16), (13,9), (15,11)]⟩,
  ⟨[1, -1], 1, 3, [(1,6), (3,8), (5,2), (7,4), (9,14), (11,16), (13,10), (15,12)]⟩]

/-- `make_matrix_nonpolarized` in `sym-PP-impl.hpp`: `pp/pp-2ch-offdiag-CR-UP.dat`, `pp/pp-2ch-offdiag-CR-DO.dat`, `pp/pp-2ch-offdiag-AN-UP.dat`, `pp/pp-2ch-offdiag-AN-DO.dat`, `pp/pp-2ch-diag.dat`, `pp/pp-2ch-Ixtot.dat`. -/
def ham_PP_2ch_nonpolarized : HamTable where
  variant := .nonpolarized
  hops := [
    ⟨.crUp, 0, 1, [(1,11), (2,12), (5,15), (6,16)]⟩,
    ⟨.crUp, 1, 1, [(1,6), (3,8), (9,14), (11,16)]⟩,
    ⟨.crDo, 0, 0, [(3,11), (4,12), (7,15), (8,16)]⟩,
    ⟨.crDo, 1, 0, [(2,6), (4,8), (10,14), (12,16)]⟩,
    ⟨.anUp, 0, 3, [(3,9), (4,10), (7,13), (8,14)]⟩,
    ⟨.anUp, 1, 3, [(2,5), (4,7), (10,13), (12,15)]⟩,
    ⟨.anDo, 0, 2, [(1,9), (2,10), (5,13), (6,14)]⟩,
    ⟨.anDo, 1, 2, [(1,5), (3,7), (9,13), (11,15)]⟩]
  siteHops := [(9,11), (10,12), (11,9), (12,10), (13,15), (14,16), (15,13), (16,14), (5,6), (6,5), (7,8), (8,7), (13,14), (14,13),
    (15,16), (16,15)]
  occupations := [
    ⟨.both, 0, [(1,2), (2,2), (3,2), (4,2), (5,2), (6,2), (7,2), (8,2), (9,0), (10,0), (11,4), (12,4), (13,0), (14,0),
    (15,4), (16,4)]⟩,
    ⟨.both, 1, [(1,2), (2,2), (3,2), (4,2), (5,0), (6,4), (7,0), (8,4), (9,2), (10,2), (11,2), (12,2), (13,0), (14,4),
    (15,0), (16,4)]⟩]

/-- `make_matrix_polarized` in `sym-PP-impl.hpp`: `pp/pp-2ch-offdiag-CR-UP.dat`, `pp/pp-2ch-offdiag-CR-DO.dat`, `pp/pp-2ch-offdiag-AN-UP.dat`, `pp/pp-2ch-offdiag-AN-DO.dat`, `pp/pp-2ch-diag-UP.dat`, `pp/pp-2ch-diag-DOWN.dat`, `pp/pp-2ch-Ixtot.dat`. -/
def ham_PP_2ch_polarized : HamTable where
  variant := .polarized
  hops := [
    ⟨.crUp, 0, 1, [(1,11), (2,12), (5,15), (6,16)]⟩,
    ⟨.crUp, 1, 1, [(1,6), (3,8), (9,14), (11,16)]⟩,
    ⟨.crDo, 0, 0, [(3,11), (4,12), (7,15), (8,16)]⟩,
    ⟨.crDo, 1, 0, [(2,6), (4,8), (10,14), (12,16)]⟩,
    ⟨.anUp, 0, 3, [(3,9), (4,10), (7,13), (8,14)]⟩,
    ⟨.anUp, 1, 3, [(2,5), (4,7), (10,13), (12,15)]⟩,
    ⟨.anDo, 0, 2, [(1,9), (2,10), (5,13), (6,14)]⟩,
    ⟨.anDo, 1, 2, [(1,5), (3,7), (9,13), (11,15)]⟩]
  siteHops := [(9,11), (10,12), (11,9), (12,10), (13,15), (14,16), (15,13), (16,14), (5,6), (6,5), (7,8), (8,7), (13,14), (14,13),
    (15,16), (16,15)]
  occupations := [
    ⟨.up, 0, [(1,0), (2,0), (3,2), (4,2), (5,0), (6,0), (7,2), (8,2), (9,0), (10,0), (11,2), (12,2), (13,0), (14,0),
    (15,2), (16,2)]⟩,
    ⟨.up, 1, [(1,0), (2,2), (3,0), (4,2), (5,0), (6,2), (7,0), (8,2), (9,0), (10,2), (11,0), (12,2), (13,0), (14,2),
    (15,0), (16,2)]⟩,
    ⟨.down, 0, [(1,2), (2,2), (3,0), (4,0), (5,2), (6,2), (7,0), (8,0), (9,0), (10,0), (11,2), (12,2), (13,0), (14,0),
    (15,2), (16,2)]⟩,
    ⟨.down, 1, [(1,2), (2,0), (3,2), (4,0), (5,0), (6,2), (7,0), (8,2), (9,2), (10,0), (11,2), (12,0), (13,0), (14,2),
    (15,0), (16,2)]⟩]

/-- Class `SymmetryPP` with 2 channel(s). -/
def ham_PP_2ch : Ham where
  builtin := ⟨"PP", 2, fields_PP, tab_PP_2ch⟩
  blocks := fblocks_PP_2ch
  invarF := none
  guard := .plain
  variants := [ham_PP_2ch_nonpolarized, ham_PP_2ch_polarized]

/-- `recalc_irreduc` in `nrg-recalc-QJ.hpp`: `qj-spin_j3_2-jz3_2.dat`, `qj-spin_j1_2-jz1_2.dat`, `qj-spin_j3_2-jz1_2.dat`, `qj-spin_j1_2-jz-1_2.dat`, `qj-spin_j3_2-jz-1_2.dat`, `qj-spin_j3_2-jz-3_2.dat`. -/
def fblocks_QJ_3ch : List FBlock := [
  ⟨[1, 3], 1, 0, [(4,1), (8,7), (9,7), (10,3), (13,2), (13,5), (14,3), (14,6), (15,7), (18,2), (18,5), (19,3), (19,6), (20,7),
    (23,12), (23,16), (23,21), (24,17), (24,22), (25,8), (25,9), (25,15), (25,20), (26,16), (26,21), (27,17), (27,22), (29,9),
    (29,11), (29,15), (29,20), (30,12), (30,16), (30,21), (31,17), (31,22), (33,9), (33,11), (33,20), (34,12), (34,21), (35,22),
    (37,10), (37,14), (37,19), (38,11), (38,15), (38,20), (39,12), (39,16), (39,21), (40,17), (40,22), (43,28), (44,28), (44,32),
    (44,36), (45,24), (45,31), (45,35), (45,40), (46,32), (46,36), (46,41), (47,42), (48,23), (48,26), (48,30), (48,39), (49,24),
    (49,27), (49,31), (49,40), (50,28), (50,32), (50,41), (51,42), (53,23), (53,26), (53,30), (53,34), (53,39), (54,24), (54,27),
    (54,31), (54,35), (54,40), (55,28), (55,32), (55,36), (55,41), (56,42), (58,47), (58,51), (58,56), (59,52), (59,57), (60,43),
    (60,44), (60,50), (60,55), (61,51), (61,56), (62,52), (62,57), (64,63)]⟩,
  ⟨[1, 1], 0, 0, [(2,1), (8,3), (9,3), (10,5), (11,6), (12,7), (13,4), (14,5), (15,6), (16,7), (18,4), (19,5), (20,6), (21,7),
    (23,8), (23,9), (25,10), (25,14), (25,19), (26,11), (26,15), (26,20), (27,12), (27,16), (27,21), (28,17), (28,22), (29,10),
    (29,14), (29,19), (30,11), (30,15), (30,20), (31,12), (31,16), (31,21), (32,17), (32,22), (33,10), (33,19), (34,11), (34,20),
    (35,12), (35,21), (36,22), (37,13), (37,18), (38,14), (38,19), (39,15), (39,20), (40,16), (40,21), (41,17), (41,22), (43,24),
    (44,24), (45,26), (45,30), (45,34), (46,27), (46,31), (46,35), (47,28), (47,32), (47,36), (48,25), (48,29), (48,38), (49,26),
    (49,30), (49,39), (50,27), (50,31), (50,40), (51,28), (51,32), (51,41), (52,42), (53,25), (53,29), (53,33), (53,38), (54,26),
    (54,30), (54,34), (54,39), (55,27), (55,31), (55,35), (55,40), (56,28), (56,32), (56,36), (56,41), (57,42), (58,43), (58,44),
    (60,45), (60,49), (60,54), (61,46), (61,50), (61,55), (62,47), (62,51), (62,56), (63,52), (63,57), (64,59)]⟩,
  ⟨[1, 1], 1, 0, [(5,1), (8,6), (9,6), (10,2), (11,3), (13,4), (14,2), (14,5), (15,3), (15,6), (16,7), (18,4), (19,2), (19,5),
    (20,3), (20,6), (21,7), (23,11), (23,15), (23,20), (24,12), (24,16), (24,21), (25,14), (25,19), (26,8), (26,9), (26,15),
    (26,20), (27,16), (27,21), (28,17), (28,22), (29,10), (29,14), (29,19), (30,9), (30,11), (30,15), (30,20), (31,12), (31,16),
    (31,21), (32,17), (32,22), (33,10), (33,19), (34,9), (34,11), (34,20), (35,12), (35,21), (36,22), (37,13), (37,18), (38,10),
    (38,14), (38,19), (39,11), (39,15), (39,20), (40,12), (40,16), (40,21), (41,17), (41,22), (43,27), (44,27), (44,31), (44,35),
    (45,23), (45,30), (45,34), (45,39), (46,24), (46,31), (46,35), (46,40), (47,32), (47,36), (47,41), (48,25), (48,29), (48,38),
    (49,23), (49,26), (49,30), (49,39), (50,24), (50,27), (50,31), (50,40), (51,28), (51,32), (51,41), (52,42), (53,25), (53,29),
    (53,33), (53,38), (54,23), (54,26), (54,30), (54,34), (54,39), (55,24), (55,27), (55,31), (55,35), (55,40), (56,28), (56,32),
    (56,36), (56,41), (57,42), (58,46), (58,50), (58,55), (59,47), (59,51), (59,56), (60,49), (60,54), (61,43), (61,44), (61,50),
    (61,55), (62,51), (62,56), (63,52), (63,57), (64,62)]⟩,
  ⟨[1, -1], 0, 0, [(3,1), (8,2), (9,2), (10,4), (11,5), (12,6), (14,4), (15,5), (16,6), (17,7), (19,4), (20,5), (21,6), (22,7),
    (24,8), (24,9), (25,13), (25,18), (26,10), (26,14), (26,19), (27,11), (27,15), (27,20), (28,12), (28,16), (28,21), (29,13),
    (29,18), (30,10), (30,14), (30,19), (31,11), (31,15), (31,20), (32,12), (32,16), (32,21), (33,18), (34,10), (34,19), (35,11),
    (35,20), (36,12), (36,21), (38,13), (38,18), (39,14), (39,19), (40,15), (40,20), (41,16), (41,21), (42,17), (42,22), (43,23),
    (44,23), (45,25), (45,29), (45,33), (46,26), (46,30), (46,34), (47,27), (47,31), (47,35), (48,37), (49,25), (49,29), (49,38),
    (50,26), (50,30), (50,39), (51,27), (51,31), (51,40), (52,28), (52,32), (52,41), (53,37), (54,25), (54,29), (54,33), (54,38),
    (55,26), (55,30), (55,34), (55,39), (56,27), (56,31), (56,35), (56,40), (57,28), (57,32), (57,36), (57,41), (59,43), (59,44),
    (60,48), (60,53), (61,45), (61,49), (61,54), (62,46), (62,50), (62,55), (63,47), (63,51), (63,56), (64,58)]⟩,
  ⟨[1, -1], 1, 0, [(6,1), (8,5), (9,5), (11,2), (12,3), (14,4), (15,2), (15,5), (16,3), (16,6), (17,7), (19,4), (20,2), (20,5),
    (21,3), (21,6), (22,7), (23,10), (23,14), (23,19), (24,11), (24,15), (24,20), (25,13), (25,18), (26,14), (26,19), (27,8),
    (27,9), (27,15), (27,20), (28,16), (28,21), (29,13), (29,18), (30,10), (30,14), (30,19), (31,9), (31,11), (31,15), (31,20),
    (32,12), (32,16), (32,21), (33,18), (34,10), (34,19), (35,9), (35,11), (35,20), (36,12), (36,21), (38,13), (38,18), (39,10),
    (39,14), (39,19), (40,11), (40,15), (40,20), (41,12), (41,16), (41,21), (42,17), (42,22), (43,26), (44,26), (44,30), (44,34),
    (45,29), (45,33), (45,38), (46,23), (46,30), (46,34), (46,39), (47,24), (47,31), (47,35), (47,40), (48,37), (49,25), (49,29),
    (49,38), (50,23), (50,26), (50,30), (50,39), (51,24), (51,27), (51,31), (51,40), (52,28), (52,32), (52,41), (53,37), (54,25),
    (54,29), (54,33), (54,38), (55,23), (55,26), (55,30), (55,34), (55,39), (56,24), (56,27), (56,31), (56,35), (56,40), (57,28),
    (57,32), (57,36), (57,41), (58,45), (58,49), (58,54), (59,46), (59,50), (59,55), (60,48), (60,53), (61,49), (61,54), (62,43),
    (62,44), (62,50), (62,55), (63,51), (63,56), (64,61)]⟩,
  ⟨[1, -3], 1, 0, [(7,1), (8,4), (9,4), (12,2), (15,4), (16,2), (16,5), (17,3), (17,6), (20,4), (21,2), (21,5), (22,3), (22,6),
    (23,13), (23,18), (24,10), (24,14), (24,19), (26,13), (26,18), (27,14), (27,19), (28,8), (28,9), (28,15), (28,20), (30,13),
    (30,18), (31,10), (31,14), (31,19), (32,9), (32,11), (32,15), (32,20), (34,18), (35,10), (35,19), (36,9), (36,11), (36,20),
    (39,13), (39,18), (40,10), (40,14), (40,19), (41,11), (41,15), (41,20), (42,12), (42,16), (42,21), (43,25), (44,25), (44,29),
    (44,33), (45,37), (46,29), (46,33), (46,38), (47,23), (47,30), (47,34), (47,39), (49,37), (50,25), (50,29), (50,38), (51,23),
    (51,26), (51,30), (51,39), (52,24), (52,27), (52,31), (52,40), (54,37), (55,25), (55,29), (55,33), (55,38), (56,23), (56,26),
    (56,30), (56,34), (56,39), (57,24), (57,27), (57,31), (57,35), (57,40), (58,48), (58,53), (59,45), (59,49), (59,54), (61,48),
    (61,53), (62,49), (62,54), (63,43), (63,44), (63,50), (63,55), (64,60)]⟩]

/-- `make_matrix` in `sym-QJ-impl.hpp`: `qj/qj-offdiag.dat`, `qj/qj-diag.dat`. -/
def ham_QJ_3ch_plain : HamTable where
  variant := .plain
  hops := [
    ⟨.offdiag, 0, 0, [(1,2), (1,3), (2,8), (2,9), (3,8), (3,9), (4,10), (4,13), (4,14), (4,18), (4,19), (5,10), (5,11), (5,14),
    (5,15), (5,19), (5,20), (6,11), (6,12), (6,15), (6,16), (6,20), (6,21), (7,12), (7,16), (7,17), (7,21), (7,22),
    (8,23), (8,24), (9,23), (9,24), (10,25), (10,26), (10,29), (10,30), (10,33), (10,34), (11,26), (11,27), (11,30), (11,31),
    (11,34), (11,35), (12,27), (12,28), (12,31), (12,32), (12,35), (12,36), (13,25), (13,29), (13,37), (13,38), (14,25), (14,26),
    (14,29), (14,30), (14,38), (14,39), (15,26), (15,27), (15,30), (15,31), (15,39), (15,40), (16,27), (16,28), (16,31), (16,32),
    (16,40), (16,41), (17,28), (17,32), (17,41), (17,42), (18,25), (18,29), (18,33), (18,37), (18,38), (19,25), (19,26), (19,29),
    (19,30), (19,33), (19,34), (19,38), (19,39), (20,26), (20,27), (20,30), (20,31), (20,34), (20,35), (20,39), (20,40), (21,27),
    (21,28), (21,31), (21,32), (21,35), (21,36), (21,40), (21,41), (22,28), (22,32), (22,36), (22,41), (22,42), (23,43), (23,44),
    (24,43), (24,44), (25,45), (25,48), (25,49), (25,53), (25,54), (26,45), (26,46), (26,49), (26,50), (26,54), (26,55), (27,46),
    (27,47), (27,50), (27,51), (27,55), (27,56), (28,47), (28,51), (28,52), (28,56), (28,57), (29,45), (29,48), (29,49), (29,53),
    (29,54), (30,45), (30,46), (30,49), (30,50), (30,54), (30,55), (31,46), (31,47), (31,50), (31,51), (31,55), (31,56), (32,47),
    (32,51), (32,52), (32,56), (32,57), (33,45), (33,53), (33,54), (34,45), (34,46), (34,54), (34,55), (35,46), (35,47), (35,55),
    (35,56), (36,47), (36,56), (36,57), (37,48), (37,53), (38,48), (38,49), (38,53), (38,54), (39,49), (39,50), (39,54), (39,55),
    (40,50), (40,51), (40,55), (40,56), (41,51), (41,52), (41,56), (41,57), (42,52), (42,57), (43,58), (43,59), (44,58), (44,59),
    (45,60), (45,61), (46,61), (46,62), (47,62), (47,63), (48,60), (49,60), (49,61), (50,61), (50,62), (51,62), (51,63), (52,63),
    (53,60), (54,60), (54,61), (55,61), (55,62), (56,62), (56,63), (57,63), (58,64), (59,64)]⟩,
    ⟨.offdiag, 1, 0, [(1,4), (1,5), (1,6), (1,7), (2,10), (2,11), (2,12), (2,13), (2,14), (2,15), (2,16), (2,18), (2,19), (2,20),
    (2,21), (3,10), (3,11), (3,12), (3,14), (3,15), (3,16), (3,17), (3,19), (3,20), (3,21), (3,22), (4,8), (4,9),
    (4,13), (4,14), (4,15), (4,18), (4,19), (4,20), (5,8), (5,9), (5,13), (5,14), (5,15), (5,16), (5,18), (5,19),
    (5,20), (5,21), (6,8), (6,9), (6,14), (6,15), (6,16), (6,17), (6,19), (6,20), (6,21), (6,22), (7,8), (7,9),
    (7,15), (7,16), (7,17), (7,20), (7,21), (7,22), (8,25), (8,26), (8,27), (8,28), (9,25), (9,26), (9,27), (9,28),
    (9,29), (9,30), (9,31), (9,32), (9,33), (9,34), (9,35), (9,36), (10,23), (10,24), (10,29), (10,30), (10,31), (10,33),
    (10,34), (10,35), (10,37), (10,38), (10,39), (10,40), (11,23), (11,24), (11,29), (11,30), (11,31), (11,32), (11,33), (11,34),
    (11,35), (11,36), (11,38), (11,39), (11,40), (11,41), (12,23), (12,24), (12,30), (12,31), (12,32), (12,34), (12,35), (12,36),
    (12,39), (12,40), (12,41), (12,42), (13,23), (13,25), (13,26), (13,29), (13,30), (13,37), (13,38), (13,39), (14,23), (14,24),
    (14,25), (14,26), (14,27), (14,29), (14,30), (14,31), (14,37), (14,38), (14,39), (14,40), (15,23), (15,24), (15,25), (15,26),
    (15,27), (15,28), (15,29), (15,30), (15,31), (15,32), (15,38), (15,39), (15,40), (15,41), (16,23), (16,24), (16,26), (16,27),
    (16,28), (16,30), (16,31), (16,32), (16,39), (16,40), (16,41), (16,42), (17,24), (17,27), (17,28), (17,31), (17,32), (17,40),
    (17,41), (17,42), (18,23), (18,25), (18,26), (18,29), (18,30), (18,33), (18,34), (18,37), (18,38), (18,39), (19,23), (19,24),
    (19,25), (19,26), (19,27), (19,29), (19,30), (19,31), (19,33), (19,34), (19,35), (19,37), (19,38), (19,39), (19,40), (20,23),
    (20,24), (20,25), (20,26), (20,27), (20,28), (20,29), (20,30), (20,31), (20,32), (20,33), (20,34), (20,35), (20,36), (20,38),
    (20,39), (20,40), (20,41), (21,23), (21,24), (21,26), (21,27), (21,28), (21,30), (21,31), (21,32), (21,34), (21,35), (21,36),
    (21,39), (21,40), (21,41), (21,42), (22,24), (22,27), (22,28), (22,31), (22,32), (22,35), (22,36), (22,40), (22,41), (22,42),
    (23,45), (23,46), (23,47), (23,48), (23,49), (23,50), (23,51), (23,53), (23,54), (23,55), (23,56), (24,45), (24,46), (24,47),
    (24,49), (24,50), (24,51), (24,52), (24,54), (24,55), (24,56), (24,57), (25,43), (25,44), (25,48), (25,49), (25,50), (25,53),
    (25,54), (25,55), (26,43), (26,44), (26,48), (26,49), (26,50), (26,51), (26,53), (26,54), (26,55), (26,56), (27,43), (27,44),
    (27,49), (27,50), (27,51), (27,52), (27,54), (27,55), (27,56), (27,57), (28,43), (28,44), (28,50), (28,51), (28,52), (28,55),
    (28,56), (28,57), (29,44), (29,45), (29,46), (29,48), (29,49), (29,50), (29,53), (29,54), (29,55), (30,44), (30,45), (30,46),
    (30,47), (30,48), (30,49), (30,50), (30,51), (30,53), (30,54), (30,55), (30,56), (31,44), (31,45), (31,46), (31,47), (31,49),
    (31,50), (31,51), (31,52), (31,54), (31,55), (31,56), (31,57), (32,44), (32,46), (32,47), (32,50), (32,51), (32,52), (32,55),
    (32,56), (32,57), (33,44), (33,45), (33,46), (33,53), (33,54), (33,55), (34,44), (34,45), (34,46), (34,47), (34,53), (34,54),
    (34,55), (34,56), (35,44), (35,45), (35,46), (35,47), (35,54), (35,55), (35,56), (35,57), (36,44), (36,46), (36,47), (36,55),
    (36,56), (36,57), (37,45), (37,48), (37,49), (37,53), (37,54), (38,45), (38,46), (38,48), (38,49), (38,50), (38,53), (38,54),
    (38,55), (39,45), (39,46), (39,47), (39,48), (39,49), (39,50), (39,51), (39,53), (39,54), (39,55), (39,56), (40,45), (40,46),
    (40,47), (40,49), (40,50), (40,51), (40,52), (40,54), (40,55), (40,56), (40,57), (41,46), (41,47), (41,50), (41,51), (41,52),
    (41,55), (41,56), (41,57), (42,47), (42,51), (42,52), (42,56), (42,57), (43,60), (43,61), (43,62), (43,63), (44,60), (44,61),
    (44,62), (44,63), (45,58), (45,59), (46,58), (46,59), (47,58), (47,59), (48,58), (48,60), (48,61), (49,58), (49,59), (49,60),
    (49,61), (49,62), (50,58), (50,59), (50,60), (50,61), (50,62), (50,63), (51,58), (51,59), (51,61), (51,62), (51,63), (52,59),
    (52,62), (52,63), (53,58), (53,60), (53,61), (54,58), (54,59), (54,60), (54,61), (54,62), (55,58), (55,59), (55,60), (55,61),
    (55,62), (55,63), (56,58), (56,59), (56,61), (56,62), (56,63), (57,59), (57,62), (57,63), (60,64), (61,64), (62,64), (63,64)]⟩]
  siteHops := []
  occupations := [
    ⟨.both, 0, [(1,0), (2,2), (3,2), (4,2), (5,2), (6,2), (7,2), (8,4), (9,4), (10,4), (11,4), (12,4), (13,4), (14,4),
    (15,4), (16,4), (17,4), (18,4), (19,4), (20,4), (21,4), (22,4), (23,6), (24,6), (25,6), (26,6), (27,6), (28,6),
    (29,6), (30,6), (31,6), (32,6), (33,6), (34,6), (35,6), (36,6), (37,6), (38,6), (39,6), (40,6), (41,6), (42,6),
    (43,8), (44,8), (45,8), (46,8), (47,8), (48,8), (49,8), (50,8), (51,8), (52,8), (53,8), (54,8), (55,8), (56,8),
    (57,8), (58,10), (59,10), (60,10), (61,10), (62,10), (63,10), (64,12)]⟩]

/-- Class `SymmetryQJ` with 3 channel(s). -/
def ham_QJ_3ch : Ham where
  builtin := ⟨"QJ", 3, fields_QJ, tab_QJ_3ch⟩
  blocks := fblocks_QJ_3ch
  invarF := none
  guard := .qj
  variants := [ham_QJ_3ch_plain]

/-- `recalc_irreduc` in `nrg-recalc-QS.hpp`: `qs-1ch-spinupa.dat`, `qs-1ch-spindowna.dat`. -/
def fblocks_QS_1ch : List FBlock := [
  ⟨[1, 1], 0, 0, [(2,1), (4,3)]⟩,
  ⟨[1, -1], 0, 0, [(3,1), (4,2)]⟩]

/-- `make_matrix` in `sym-QS-impl.hpp`: `qs/qs-1ch-offdiag.dat`, `qs/qs-1ch-diag.dat`. -/
def ham_QS_1ch_plain : HamTable where
  variant := .plain
  hops := [
    ⟨.offdiag, 0, 0, [(1,2), (1,3), (2,4), (3,4)]⟩]
  siteHops := []
  occupations := [
    ⟨.both, 0, [(1,0), (2,2), (3,2), (4,4)]⟩]

/-- Class `SymmetryQS` with 1 channel(s). -/
def ham_QS_1ch : Ham where
  builtin := ⟨"QS", 1, fields_QS, tab_QS_1ch⟩
  blocks := fblocks_QS_1ch
  invarF := none
  guard := .plain
  variants := [ham_QS_1ch_plain]

/-- `recalc_irreduc` in `nrg-recalc-QS.hpp`: `qs-2ch-spinupa.dat`, `qs-2ch-spinupb.dat`, `qs-2ch-spindowna.dat`, `qs-2ch-spindownb.dat`. -/
def fblocks_QS_2ch : List FBlock := [
  ⟨[1, 1], 0, 0, [(4,1), (7,3), (8,5), (9,2), (10,3), (12,6), (14,7), (14,10), (15,11), (16,13)]⟩,
  ⟨[1, 1], 1, 0, [(2,1), (6,3), (7,5), (9,4), (10,5), (12,7), (12,10), (13,11), (14,8), (16,15)]⟩,
  ⟨[1, -1], 0, 0, [(5,1), (7,2), (8,4), (10,2), (11,3), (13,6), (14,9), (15,7), (15,10), (16,12)]⟩,
  ⟨[1, -1], 1, 0, [(3,1), (6,2), (7,4), (10,4), (11,5), (12,9), (13,7), (13,10), (15,8), (16,14)]⟩]

/-- `make_matrix` in `sym-QS-impl.hpp`: `qs/qs-2ch-diag.dat`, `qs/qs-2ch-offdiag.dat`, `qs/qs-2ch-offdiag-mix.dat`, `qs/qs-2ch-runghop.dat`. -/
def ham_QS_2ch_plain : HamTable where
  variant := .plain
  hops := [
    ⟨.offdiag, 0, 0, [(1,4), (1,5), (2,7), (2,9), (2,10), (3,7), (3,10), (3,11), (4,8), (5,8), (6,12), (6,13), (7,14), (7,15),
    (9,14), (10,14), (10,15), (11,15), (12,16), (13,16)]⟩,
    ⟨.offdiag, 1, 0, [(1,2), (1,3), (2,6), (3,6), (4,7), (4,9), (4,10), (5,7), (5,10), (5,11), (7,12), (7,13), (8,14), (8,15),
    (9,12), (10,12), (10,13), (11,13), (14,16), (15,16)]⟩,
    ⟨.mix, 0, 0, [(1,2), (1,3), (2,6), (3,6), (4,7), (4,9), (4,10), (5,7), (5,10), (5,11), (7,12), (7,13), (8,14), (8,15),
    (9,12), (10,12), (10,13), (11,13), (14,16), (15,16)]⟩,
    ⟨.mix, 1, 0, [(1,4), (1,5), (2,7), (2,9), (2,10), (3,7), (3,10), (3,11), (4,8), (5,8), (6,12), (6,13), (7,14), (7,15),
    (9,14), (10,14), (10,15), (11,15), (12,16), (13,16)]⟩]
  siteHops := [(2,4), (3,5), (4,2), (5,3), (6,7), (7,6), (7,8), (8,7), (12,14), (13,15), (14,12), (15,13)]
  occupations := [
    ⟨.both, 0, [(1,0), (2,0), (3,0), (4,2), (5,2), (6,0), (7,2), (8,4), (9,2), (10,2), (11,2), (12,2), (13,2), (14,4),
    (15,4), (16,4)]⟩,
    ⟨.both, 1, [(1,0), (2,2), (3,2), (4,0), (5,0), (6,4), (7,2), (8,0), (9,2), (10,2), (11,2), (12,4), (13,4), (14,2),
    (15,2), (16,4)]⟩]

/-- Class `SymmetryQS` with 2 channel(s). -/
def ham_QS_2ch : Ham where
  builtin := ⟨"QS", 2, fields_QS, tab_QS_2ch⟩
  blocks := fblocks_QS_2ch
  invarF := none
  guard := .plain
  variants := [ham_QS_2ch_plain]

/-- `recalc_irreduc` in `nrg-recalc-QS.hpp`: `qs-3ch-spinupa.dat`, `qs-3ch-spinupb.dat`, `qs-3ch-spinupc.dat`, `qs-3ch-spindowna.dat`, `qs-3ch-spindownb.dat`, `qs-3ch-spindownc.dat`. -/
def fblocks_QS_3ch : List FBlock := [
  ⟨[1, 1], 0, 0, [(6,1), (10,3), (12,5), (13,7), (17,2), (18,3), (20,4), (21,5), (25,8), (29,9), (29,15), (30,16), (31,10), (31,18),
    (32,19), (33,9), (33,15), (34,16), (35,11), (37,12), (37,21), (38,22), (39,14), (40,15), (41,16), (44,24), (45,26), (46,28),
    (47,30), (47,34), (48,36), (49,23), (50,24), (52,27), (53,28), (55,29), (55,33), (55,40), (56,30), (56,34), (56,41), (57,42),
    (58,43), (60,44), (60,50), (61,51), (62,46), (62,53), (63,54), (64,59)]⟩,
  ⟨[1, 1], 1, 0, [(4,1), (9,3), (11,5), (12,7), (14,2), (15,3), (20,6), (21,7), (23,8), (27,9), (27,15), (28,16), (29,10), (29,18),
    (30,19), (33,10), (33,18), (34,19), (35,12), (35,21), (36,22), (37,13), (39,17), (40,18), (41,19), (43,24), (44,26), (46,30),
    (46,34), (47,32), (48,38), (49,25), (50,26), (52,29), (52,33), (52,40), (53,30), (53,34), (53,41), (54,42), (55,31), (56,32),
    (58,44), (58,50), (59,51), (60,45), (62,47), (62,56), (63,57), (64,61)]⟩,
  ⟨[1, 1], 2, 0, [(2,1), (8,3), (9,5), (10,7), (14,4), (15,5), (17,6), (18,7), (23,9), (23,15), (24,16), (25,10), (25,18), (26,19),
    (27,11), (29,12), (31,13), (33,21), (34,22), (39,20), (40,21), (41,22), (43,28), (44,30), (45,32), (46,36), (47,38), (49,33),
    (49,40), (50,34), (50,41), (51,42), (52,35), (53,36), (55,37), (56,38), (58,46), (58,53), (59,54), (60,47), (60,56), (61,57),
    (62,48), (64,63)]⟩,
  ⟨[1, -1], 0, 0, [(7,1), (10,2), (12,4), (13,6), (18,2), (19,3), (21,4), (22,5), (26,8), (29,14), (30,9), (30,15), (31,17), (32,10),
    (32,18), (33,14), (34,9), (34,15), (36,11), (37,20), (38,12), (38,21), (40,14), (41,15), (42,16), (44,23), (45,25), (46,27),
    (47,29), (47,33), (48,35), (50,23), (51,24), (53,27), (54,28), (55,39), (56,29), (56,33), (56,40), (57,30), (57,34), (57,41),
    (59,43), (60,49), (61,44), (61,50), (62,52), (63,46), (63,53), (64,58)]⟩,
  ⟨[1, -1], 1, 0, [(5,1), (9,2), (11,4), (12,6), (15,2), (16,3), (21,6), (22,7), (24,8), (27,14), (28,9), (28,15), (29,17), (30,10),
    (30,18), (33,17), (34,10), (34,18), (35,20), (36,12), (36,21), (38,13), (40,17), (41,18), (42,19), (43,23), (44,25), (46,29),
    (46,33), (47,31), (48,37), (50,25), (51,26), (52,39), (53,29), (53,33), (53,40), (54,30), (54,34), (54,41), (56,31), (57,32),
    (58,49), (59,44), (59,50), (61,45), (62,55), (63,47), (63,56), (64,60)]⟩,
  ⟨[1, -1], 2, 0, [(3,1), (8,2), (9,4), (10,6), (15,4), (16,5), (18,6), (19,7), (23,14), (24,9), (24,15), (25,17), (26,10), (26,18),
    (28,11), (30,12), (32,13), (33,20), (34,21), (40,20), (41,21), (42,22), (43,27), (44,29), (45,31), (46,35), (47,37), (49,39),
    (50,33), (50,40), (51,34), (51,41), (53,35), (54,36), (56,37), (57,38), (58,52), (59,46), (59,53), (60,55), (61,47), (61,56),
    (63,48), (64,62)]⟩]

/-- `make_matrix` in `sym-QS-impl.hpp`: `qs/qs-3ch-diag.dat`, `qs/qs-3ch-offdiag.dat`. -/
def ham_QS_3ch_plain : HamTable where
  variant := .plain
  hops := [
    ⟨.offdiag, 0, 0, [(1,6), (1,7), (2,10), (2,17), (2,18), (3,10), (3,18), (3,19), (4,12), (4,20), (4,21), (5,12), (5,21), (5,22),
    (6,13), (7,13), (8,25), (8,26), (9,29), (9,30), (9,33), (9,34), (10,31), (10,32), (11,35), (11,36), (12,37), (12,38),
    (14,29), (14,33), (14,39), (14,40), (15,29), (15,30), (15,33), (15,34), (15,40), (15,41), (16,30), (16,34), (16,41), (16,42),
    (17,31), (18,31), (18,32), (19,32), (20,37), (21,37), (21,38), (22,38), (23,44), (23,49), (23,50), (24,44), (24,50), (24,51),
    (25,45), (26,45), (27,46), (27,52), (27,53), (28,46), (28,53), (28,54), (29,47), (29,55), (29,56), (30,47), (30,56), (30,57),
    (33,47), (33,55), (33,56), (34,47), (34,56), (34,57), (35,48), (36,48), (39,55), (40,55), (40,56), (41,56), (41,57), (42,57),
    (43,58), (43,59), (44,60), (44,61), (46,62), (46,63), (49,60), (50,60), (50,61), (51,61), (52,62), (53,62), (53,63), (54,63),
    (58,64), (59,64)]⟩,
    ⟨.offdiag, 1, 0, [(1,4), (1,5), (2,9), (2,14), (2,15), (3,9), (3,15), (3,16), (4,11), (5,11), (6,12), (6,20), (6,21), (7,12),
    (7,21), (7,22), (8,23), (8,24), (9,27), (9,28), (10,29), (10,30), (10,33), (10,34), (12,35), (12,36), (13,37), (13,38),
    (14,27), (15,27), (15,28), (16,28), (17,29), (17,33), (17,39), (17,40), (18,29), (18,30), (18,33), (18,34), (18,40), (18,41),
    (19,30), (19,34), (19,41), (19,42), (20,35), (21,35), (21,36), (22,36), (23,43), (24,43), (25,44), (25,49), (25,50), (26,44),
    (26,50), (26,51), (29,46), (29,52), (29,53), (30,46), (30,53), (30,54), (31,47), (31,55), (31,56), (32,47), (32,56), (32,57),
    (33,46), (33,52), (33,53), (34,46), (34,53), (34,54), (37,48), (38,48), (39,52), (40,52), (40,53), (41,53), (41,54), (42,54),
    (44,58), (44,59), (45,60), (45,61), (47,62), (47,63), (49,58), (50,58), (50,59), (51,59), (55,62), (56,62), (56,63), (57,63),
    (60,64), (61,64)]⟩,
    ⟨.offdiag, 2, 0, [(1,2), (1,3), (2,8), (3,8), (4,9), (4,14), (4,15), (5,9), (5,15), (5,16), (6,10), (6,17), (6,18), (7,10),
    (7,18), (7,19), (9,23), (9,24), (10,25), (10,26), (11,27), (11,28), (12,29), (12,30), (13,31), (13,32), (14,23), (15,23),
    (15,24), (16,24), (17,25), (18,25), (18,26), (19,26), (20,33), (20,39), (20,40), (21,33), (21,34), (21,40), (21,41), (22,34),
    (22,41), (22,42), (27,43), (28,43), (29,44), (30,44), (31,45), (32,45), (33,49), (33,50), (34,50), (34,51), (35,46), (35,52),
    (35,53), (36,46), (36,53), (36,54), (37,47), (37,55), (37,56), (38,47), (38,56), (38,57), (39,49), (40,49), (40,50), (41,50),
    (41,51), (42,51), (46,58), (46,59), (47,60), (47,61), (48,62), (48,63), (52,58), (53,58), (53,59), (54,59), (55,60), (56,60),
    (56,61), (57,61), (62,64), (63,64)]⟩]
  siteHops := []
  occupations := [
    ⟨.both, 0, [(1,0), (2,0), (3,0), (4,0), (5,0), (6,2), (7,2), (8,0), (9,0), (10,2), (11,0), (12,2), (13,4), (14,0),
    (15,0), (16,0), (17,2), (18,2), (19,2), (20,2), (21,2), (22,2), (23,0), (24,0), (25,2), (26,2), (27,0), (28,0),
    (29,2), (30,2), (31,4), (32,4), (33,2), (34,2), (35,2), (36,2), (37,4), (38,4), (39,2), (40,2), (41,2), (42,2),
    (43,0), (44,2), (45,4), (46,2), (47,4), (48,4), (49,2), (50,2), (51,2), (52,2), (53,2), (54,2), (55,4), (56,4),
    (57,4), (58,2), (59,2), (60,4), (61,4), (62,4), (63,4), (64,4)]⟩,
    ⟨.both, 1, [(1,0), (2,0), (3,0), (4,2), (5,2), (6,0), (7,0), (8,0), (9,2), (10,0), (11,4), (12,2), (13,0), (14,2),
    (15,2), (16,2), (17,0), (18,0), (19,0), (20,2), (21,2), (22,2), (23,2), (24,2), (25,0), (26,0), (27,4), (28,4),
    (29,2), (30,2), (31,0), (32,0), (33,2), (34,2), (35,4), (36,4), (37,2), (38,2), (39,2), (40,2), (41,2), (42,2),
    (43,4), (44,2), (45,0), (46,4), (47,2), (48,4), (49,2), (50,2), (51,2), (52,4), (53,4), (54,4), (55,2), (56,2),
    (57,2), (58,4), (59,4), (60,2), (61,2), (62,4), (63,4), (64,4)]⟩,
    ⟨.both, 2, [(1,0), (2,2), (3,2), (4,0), (5,0), (6,0), (7,0), (8,4), (9,2), (10,2), (11,0), (12,0), (13,0), (14,2),
    (15,2), (16,2), (17,2), (18,2), (19,2), (20,0), (21,0), (22,0), (23,4), (24,4), (25,4), (26,4), (27,2), (28,2),
    (29,2), (30,2), (31,2), (32,2), (33,2), (34,2), (35,0), (36,0), (37,0), (38,0), (39,2), (40,2), (41,2), (42,2),
    (43,4), (44,4), (45,4), (46,2), (47,2), (48,0), (49,4), (50,4), (51,4), (52,2), (53,2), (54,2), (55,2), (56,2),
    (57,2), (58,4), (59,4), (60,4), (61,4), (62,2), (63,2), (64,4)]⟩]

/-- Class `SymmetryQS` with 3 channel(s). -/
def ham_QS_3ch : Ham where
  builtin := ⟨"QS", 3, fields_QS, tab_QS_3ch⟩
  blocks := fblocks_QS_3ch
  invarF := none
  guard := .plain
  variants := [ham_QS_3ch_plain]

/-- `recalc_irreduc` in `nrg-recalc-QS.hpp`: `qs-4ch-spinupa.dat`, `qs-4ch-spinupb.dat`, `qs-4ch-spinupc.dat`, `qs-4ch-spinupd.dat`, `qs-4ch-spindowna.dat`, `qs-4ch-spindownb.dat`, `qs-4ch-spindownc.dat`, `qs-4ch-spindownd.dat`. -/
def fblocks_QS_4ch : List FBlock := [
  ⟨[1, 1], 0, 0, [(8,1), (13,3), (16,5), (18,7), (19,9), (26,2), (27,3), (32,4), (33,5), (35,6), (36,7), (42,10), (48,11), (48,21),
    (49,22), (52,12), (52,24), (53,25), (54,13), (54,27), (55,28), (58,11), (58,21), (59,22), (60,12), (60,24), (61,25), (64,14),
    (68,15), (68,30), (69,31), (70,16), (70,33), (71,34), (72,15), (72,30), (73,31), (74,17), (76,18), (76,36), (77,37), (82,20),
    (83,21), (84,22), (86,23), (87,24), (88,25), (90,29), (91,30), (92,31), (96,39), (98,41), (99,43), (101,45), (103,47), (103,57),
    (104,49), (104,59), (105,47), (105,57), (106,51), (107,53), (107,61), (109,63), (110,65), (111,67), (112,69), (112,73), (113,75), (117,38),
    (118,39), (120,40), (121,41), (126,44), (127,45), (132,46), (132,56), (132,79), (133,47), (133,57), (133,80), (134,81), (135,48), (135,58),
    (135,83), (136,49), (136,59), (136,84), (137,85), (138,46), (138,56), (138,79), (139,47), (139,57), (139,80), (140,81), (141,50), (142,51),
    (144,52), (144,60), (144,87), (145,53), (145,61), (145,88), (146,89), (147,56), (147,79), (148,57), (148,80), (149,81), (150,62), (151,63),
    (153,66), (154,67), (156,68), (156,72), (156,91), (157,69), (157,73), (157,92), (158,93), (159,78), (160,79), (161,80), (162,81), (166,94),
    (170,95), (170,115), (171,116), (172,96), (172,118), (173,119), (174,95), (174,115), (175,116), (176,97), (178,98), (178,121), (179,122), (182,100),
    (182,124), (183,125), (184,101), (184,127), (185,128), (186,102), (186,130), (187,131), (188,103), (188,105), (188,133), (188,139), (189,134), (189,140),
    (190,106), (190,142), (191,143), (192,100), (192,124), (193,125), (194,102), (194,130), (195,131), (196,103), (196,105), (196,133), (196,139), (196,148),
    (197,134), (197,140), (197,149), (198,108), (200,109), (200,151), (201,152), (202,111), (202,154), (203,155), (204,114), (205,115), (206,116), (208,123),
    (209,124), (210,125), (212,129), (213,130), (214,131), (216,132), (216,138), (216,147), (216,160), (217,133), (217,139), (217,148), (217,161), (218,134),
    (218,140), (218,149), (218,162), (219,163), (221,165), (222,167), (223,169), (224,171), (224,175), (225,177), (226,181), (227,183), (227,193), (228,187),
    (228,195), (229,199), (230,164), (231,165), (233,168), (234,169), (236,170), (236,174), (236,205), (237,171), (237,175), (237,206), (238,207), (239,180),
    (240,181), (242,182), (242,192), (242,209), (243,183), (243,193), (243,210), (244,211), (245,186), (245,194), (245,213), (246,187), (246,195), (246,214),
    (247,215), (248,220), (250,221), (250,231), (251,232), (252,223), (252,234), (253,235), (254,226), (254,240), (255,241), (256,249)]⟩,
  ⟨[1, 1], 1, 0, [(6,1), (12,3), (15,5), (17,7), (18,9), (23,2), (24,3), (29,4), (30,5), (35,8), (36,9), (40,10), (46,11), (46,21),
    (47,22), (50,12), (50,24), (51,25), (52,13), (52,27), (53,28), (56,11), (56,21), (57,22), (60,13), (60,27), (61,28), (62,14),
    (66,15), (66,30), (67,31), (68,16), (68,33), (69,34), (72,16), (72,33), (73,34), (74,18), (74,36), (75,37), (76,19), (78,20),
    (79,21), (80,22), (86,26), (87,27), (88,28), (90,32), (91,33), (92,34), (95,39), (97,41), (98,43), (100,45), (102,47), (102,57),
    (103,49), (103,59), (105,49), (105,59), (106,53), (106,61), (107,55), (108,63), (109,65), (111,69), (111,73), (112,71), (113,77), (114,38),
    (115,39), (120,42), (121,43), (123,44), (124,45), (129,46), (129,56), (129,79), (130,47), (130,57), (130,80), (131,81), (132,48), (132,58),
    (132,83), (133,49), (133,59), (133,84), (134,85), (138,48), (138,58), (138,83), (139,49), (139,59), (139,84), (140,85), (141,52), (141,60),
    (141,87), (142,53), (142,61), (142,88), (143,89), (144,54), (145,55), (147,58), (147,83), (148,59), (148,84), (149,85), (150,64), (151,65),
    (153,68), (153,72), (153,91), (154,69), (154,73), (154,92), (155,93), (156,70), (157,71), (159,82), (160,83), (161,84), (162,85), (164,94),
    (168,95), (168,115), (169,116), (170,96), (170,118), (171,119), (174,96), (174,118), (175,119), (176,98), (176,121), (177,122), (178,99), (180,100),
    (180,124), (181,125), (182,101), (182,127), (183,128), (186,103), (186,105), (186,133), (186,139), (187,134), (187,140), (188,104), (188,136), (189,137),
    (190,107), (190,145), (191,146), (192,101), (192,127), (193,128), (194,103), (194,105), (194,133), (194,139), (194,148), (195,134), (195,140), (195,149),
    (196,104), (196,136), (197,137), (198,109), (198,151), (199,152), (200,110), (202,112), (202,157), (203,158), (204,117), (205,118), (206,119), (208,126),
    (209,127), (210,128), (212,132), (212,138), (212,147), (212,160), (213,133), (213,139), (213,148), (213,161), (214,134), (214,140), (214,149), (214,162),
    (215,163), (216,135), (217,136), (218,137), (220,165), (221,167), (223,171), (223,175), (224,173), (225,179), (226,183), (226,193), (227,185), (228,189),
    (228,197), (229,201), (230,166), (231,167), (233,170), (233,174), (233,205), (234,171), (234,175), (234,206), (235,207), (236,172), (237,173), (239,182),
    (239,192), (239,209), (240,183), (240,193), (240,210), (241,211), (242,184), (243,185), (245,188), (245,196), (245,217), (246,189), (246,197), (246,218),
    (247,219), (248,221), (248,231), (249,232), (250,222), (252,224), (252,237), (253,238), (254,227), (254,243), (255,244), (256,251)]⟩,
  ⟨[1, 1], 2, 0, [(4,1), (11,3), (14,5), (15,7), (16,9), (20,2), (21,3), (29,6), (30,7), (32,8), (33,9), (38,10), (44,11), (44,21),
    (45,22), (46,12), (46,24), (47,25), (48,13), (48,27), (49,28), (56,12), (56,24), (57,25), (58,13), (58,27), (59,28), (62,15),
    (62,30), (63,31), (64,16), (64,33), (65,34), (66,17), (68,18), (70,19), (72,36), (73,37), (78,23), (79,24), (80,25), (82,26),
    (83,27), (84,28), (90,35), (91,36), (92,37), (94,39), (95,41), (96,43), (100,47), (100,57), (101,49), (101,59), (102,51), (103,53),
    (104,55), (105,61), (108,67), (109,69), (110,71), (111,75), (112,77), (114,40), (115,41), (117,42), (118,43), (123,46), (123,56), (123,79),
    (124,47), (124,57), (124,80), (125,81), (126,48), (126,58), (126,83), (127,49), (127,59), (127,84), (128,85), (129,50), (130,51), (132,52),
    (133,53), (135,54), (136,55), (138,60), (138,87), (139,61), (139,88), (140,89), (147,60), (147,87), (148,61), (148,88), (149,89), (150,72),
    (150,91), (151,73), (151,92), (152,93), (153,74), (154,75), (156,76), (157,77), (159,86), (160,87), (161,88), (162,89), (164,95), (164,115),
    (165,116), (166,96), (166,118), (167,119), (168,97), (170,98), (172,99), (174,121), (175,122), (180,102), (180,130), (181,131), (182,103), (182,133),
    (183,134), (184,104), (184,136), (185,137), (186,106), (186,142), (187,143), (188,107), (188,145), (189,146), (192,105), (192,139), (192,148), (193,140),
    (193,149), (194,106), (194,142), (195,143), (196,107), (196,145), (197,146), (198,111), (198,154), (199,155), (200,112), (200,157), (201,158), (202,113),
    (204,120), (205,121), (206,122), (208,138), (208,147), (208,160), (209,139), (209,148), (209,161), (210,140), (210,149), (210,162), (211,163), (212,141),
    (213,142), (214,143), (216,144), (217,145), (218,146), (220,169), (221,171), (222,173), (223,177), (224,179), (226,187), (226,195), (227,189), (227,197),
    (228,191), (229,203), (230,174), (230,205), (231,175), (231,206), (232,207), (233,176), (234,177), (236,178), (237,179), (239,186), (239,194), (239,213),
    (240,187), (240,195), (240,214), (241,215), (242,188), (242,196), (242,217), (243,189), (243,197), (243,218), (244,219), (245,190), (246,191), (248,223),
    (248,234), (249,235), (250,224), (250,237), (251,238), (252,225), (254,228), (254,246), (255,247), (256,253)]⟩,
  ⟨[1, 1], 3, 0, [(2,1), (10,3), (11,5), (12,7), (13,9), (20,4), (21,5), (23,6), (24,7), (26,8), (27,9), (38,11), (38,21), (39,22),
    (40,12), (40,24), (41,25), (42,13), (42,27), (43,28), (44,14), (46,15), (48,16), (50,17), (52,18), (54,19), (56,30), (57,31),
    (58,33), (59,34), (60,36), (61,37), (78,29), (79,30), (80,31), (82,32), (83,33), (84,34), (86,35), (87,36), (88,37), (94,45),
    (95,47), (96,49), (97,51), (98,53), (99,55), (100,63), (101,65), (102,67), (103,69), (104,71), (105,73), (106,75), (107,77), (114,56),
    (114,79), (115,57), (115,80), (116,81), (117,58), (117,83), (118,59), (118,84), (119,85), (120,60), (120,87), (121,61), (121,88), (122,89),
    (123,62), (124,63), (126,64), (127,65), (129,66), (130,67), (132,68), (133,69), (135,70), (136,71), (138,72), (139,73), (141,74), (142,75),
    (144,76), (145,77), (147,91), (148,92), (149,93), (159,90), (160,91), (161,92), (162,93), (164,100), (164,124), (165,125), (166,101), (166,127),
    (167,128), (168,102), (168,130), (169,131), (170,103), (170,133), (171,134), (172,104), (172,136), (173,137), (174,105), (174,139), (175,140), (176,106),
    (176,142), (177,143), (178,107), (178,145), (179,146), (180,108), (182,109), (184,110), (186,111), (188,112), (190,113), (192,151), (193,152), (194,154),
    (195,155), (196,157), (197,158), (204,147), (204,160), (205,148), (205,161), (206,149), (206,162), (207,163), (208,150), (209,151), (210,152), (212,153),
    (213,154), (214,155), (216,156), (217,157), (218,158), (220,181), (221,183), (222,185), (223,187), (224,189), (225,191), (226,199), (227,201), (228,203),
    (230,192), (230,209), (231,193), (231,210), (232,211), (233,194), (233,213), (234,195), (234,214), (235,215), (236,196), (236,217), (237,197), (237,218),
    (238,219), (239,198), (240,199), (242,200), (243,201), (245,202), (246,203), (248,226), (248,240), (249,241), (250,227), (250,243), (251,244), (252,228),
    (252,246), (253,247), (254,229), (256,255)]⟩,
  ⟨[1, -1], 0, 0, [(9,1), (13,2), (16,4), (18,6), (19,8), (27,2), (28,3), (33,4), (34,5), (36,6), (37,7), (43,10), (48,20), (49,11),
    (49,21), (52,23), (53,12), (53,24), (54,26), (55,13), (55,27), (58,20), (59,11), (59,21), (60,23), (61,12), (61,24), (65,14),
    (68,29), (69,15), (69,30), (70,32), (71,16), (71,33), (72,29), (73,15), (73,30), (75,17), (76,35), (77,18), (77,36), (83,20),
    (84,21), (85,22), (87,23), (88,24), (89,25), (91,29), (92,30), (93,31), (96,38), (98,40), (99,42), (101,44), (103,46), (103,56),
    (104,48), (104,58), (105,46), (105,56), (106,50), (107,52), (107,60), (109,62), (110,64), (111,66), (112,68), (112,72), (113,74), (118,38),
    (119,39), (121,40), (122,41), (127,44), (128,45), (132,78), (133,46), (133,56), (133,79), (134,47), (134,57), (134,80), (135,82), (136,48),
    (136,58), (136,83), (137,49), (137,59), (137,84), (138,78), (139,46), (139,56), (139,79), (140,47), (140,57), (140,80), (142,50), (143,51),
    (144,86), (145,52), (145,60), (145,87), (146,53), (146,61), (146,88), (147,78), (148,56), (148,79), (149,57), (149,80), (151,62), (152,63),
    (154,66), (155,67), (156,90), (157,68), (157,72), (157,91), (158,69), (158,73), (158,92), (160,78), (161,79), (162,80), (163,81), (167,94),
    (170,114), (171,95), (171,115), (172,117), (173,96), (173,118), (174,114), (175,95), (175,115), (177,97), (178,120), (179,98), (179,121), (182,123),
    (183,100), (183,124), (184,126), (185,101), (185,127), (186,129), (187,102), (187,130), (188,132), (188,138), (189,103), (189,105), (189,133), (189,139),
    (190,141), (191,106), (191,142), (192,123), (193,100), (193,124), (194,129), (195,102), (195,130), (196,132), (196,138), (196,147), (197,103), (197,105),
    (197,133), (197,139), (197,148), (199,108), (200,150), (201,109), (201,151), (202,153), (203,111), (203,154), (205,114), (206,115), (207,116), (209,123),
    (210,124), (211,125), (213,129), (214,130), (215,131), (216,159), (217,132), (217,138), (217,147), (217,160), (218,133), (218,139), (218,148), (218,161),
    (219,134), (219,140), (219,149), (219,162), (221,164), (222,166), (223,168), (224,170), (224,174), (225,176), (226,180), (227,182), (227,192), (228,186),
    (228,194), (229,198), (231,164), (232,165), (234,168), (235,169), (236,204), (237,170), (237,174), (237,205), (238,171), (238,175), (238,206), (240,180),
    (241,181), (242,208), (243,182), (243,192), (243,209), (244,183), (244,193), (244,210), (245,212), (246,186), (246,194), (246,213), (247,187), (247,195),
    (247,214), (249,220), (250,230), (251,221), (251,231), (252,233), (253,223), (253,234), (254,239), (255,226), (255,240), (256,248)]⟩,
  ⟨[1, -1], 1, 0, [(7,1), (12,2), (15,4), (17,6), (18,8), (24,2), (25,3), (30,4), (31,5), (36,8), (37,9), (41,10), (46,20), (47,11),
    (47,21), (50,23), (51,12), (51,24), (52,26), (53,13), (53,27), (56,20), (57,11), (57,21), (60,26), (61,13), (61,27), (63,14),
    (66,29), (67,15), (67,30), (68,32), (69,16), (69,33), (72,32), (73,16), (73,33), (74,35), (75,18), (75,36), (77,19), (79,20),
    (80,21), (81,22), (87,26), (88,27), (89,28), (91,32), (92,33), (93,34), (95,38), (97,40), (98,42), (100,44), (102,46), (102,56),
    (103,48), (103,58), (105,48), (105,58), (106,52), (106,60), (107,54), (108,62), (109,64), (111,68), (111,72), (112,70), (113,76), (115,38),
    (116,39), (121,42), (122,43), (124,44), (125,45), (129,78), (130,46), (130,56), (130,79), (131,47), (131,57), (131,80), (132,82), (133,48),
    (133,58), (133,83), (134,49), (134,59), (134,84), (138,82), (139,48), (139,58), (139,83), (140,49), (140,59), (140,84), (141,86), (142,52),
    (142,60), (142,87), (143,53), (143,61), (143,88), (145,54), (146,55), (147,82), (148,58), (148,83), (149,59), (149,84), (151,64), (152,65),
    (153,90), (154,68), (154,72), (154,91), (155,69), (155,73), (155,92), (157,70), (158,71), (160,82), (161,83), (162,84), (163,85), (165,94),
    (168,114), (169,95), (169,115), (170,117), (171,96), (171,118), (174,117), (175,96), (175,118), (176,120), (177,98), (177,121), (179,99), (180,123),
    (181,100), (181,124), (182,126), (183,101), (183,127), (186,132), (186,138), (187,103), (187,105), (187,133), (187,139), (188,135), (189,104), (189,136),
    (190,144), (191,107), (191,145), (192,126), (193,101), (193,127), (194,132), (194,138), (194,147), (195,103), (195,105), (195,133), (195,139), (195,148),
    (196,135), (197,104), (197,136), (198,150), (199,109), (199,151), (201,110), (202,156), (203,112), (203,157), (205,117), (206,118), (207,119), (209,126),
    (210,127), (211,128), (212,159), (213,132), (213,138), (213,147), (213,160), (214,133), (214,139), (214,148), (214,161), (215,134), (215,140), (215,149),
    (215,162), (217,135), (218,136), (219,137), (220,164), (221,166), (223,170), (223,174), (224,172), (225,178), (226,182), (226,192), (227,184), (228,188),
    (228,196), (229,200), (231,166), (232,167), (233,204), (234,170), (234,174), (234,205), (235,171), (235,175), (235,206), (237,172), (238,173), (239,208),
    (240,182), (240,192), (240,209), (241,183), (241,193), (241,210), (243,184), (244,185), (245,216), (246,188), (246,196), (246,217), (247,189), (247,197),
    (247,218), (248,230), (249,221), (249,231), (251,222), (252,236), (253,224), (253,237), (254,242), (255,227), (255,243), (256,250)]⟩,
  ⟨[1, -1], 2, 0, [(5,1), (11,2), (14,4), (15,6), (16,8), (21,2), (22,3), (30,6), (31,7), (33,8), (34,9), (39,10), (44,20), (45,11),
    (45,21), (46,23), (47,12), (47,24), (48,26), (49,13), (49,27), (56,23), (57,12), (57,24), (58,26), (59,13), (59,27), (62,29),
    (63,15), (63,30), (64,32), (65,16), (65,33), (67,17), (69,18), (71,19), (72,35), (73,36), (79,23), (80,24), (81,25), (83,26),
    (84,27), (85,28), (91,35), (92,36), (93,37), (94,38), (95,40), (96,42), (100,46), (100,56), (101,48), (101,58), (102,50), (103,52),
    (104,54), (105,60), (108,66), (109,68), (110,70), (111,74), (112,76), (115,40), (116,41), (118,42), (119,43), (123,78), (124,46), (124,56),
    (124,79), (125,47), (125,57), (125,80), (126,82), (127,48), (127,58), (127,83), (128,49), (128,59), (128,84), (130,50), (131,51), (133,52),
    (134,53), (136,54), (137,55), (138,86), (139,60), (139,87), (140,61), (140,88), (147,86), (148,60), (148,87), (149,61), (149,88), (150,90),
    (151,72), (151,91), (152,73), (152,92), (154,74), (155,75), (157,76), (158,77), (160,86), (161,87), (162,88), (163,89), (164,114), (165,95),
    (165,115), (166,117), (167,96), (167,118), (169,97), (171,98), (173,99), (174,120), (175,121), (180,129), (181,102), (181,130), (182,132), (183,103),
    (183,133), (184,135), (185,104), (185,136), (186,141), (187,106), (187,142), (188,144), (189,107), (189,145), (192,138), (192,147), (193,105), (193,139),
    (193,148), (194,141), (195,106), (195,142), (196,144), (197,107), (197,145), (198,153), (199,111), (199,154), (200,156), (201,112), (201,157), (203,113),
    (205,120), (206,121), (207,122), (208,159), (209,138), (209,147), (209,160), (210,139), (210,148), (210,161), (211,140), (211,149), (211,162), (213,141),
    (214,142), (215,143), (217,144), (218,145), (219,146), (220,168), (221,170), (222,172), (223,176), (224,178), (226,186), (226,194), (227,188), (227,196),
    (228,190), (229,202), (230,204), (231,174), (231,205), (232,175), (232,206), (234,176), (235,177), (237,178), (238,179), (239,212), (240,186), (240,194),
    (240,213), (241,187), (241,195), (241,214), (242,216), (243,188), (243,196), (243,217), (244,189), (244,197), (244,218), (246,190), (247,191), (248,233),
    (249,223), (249,234), (250,236), (251,224), (251,237), (253,225), (254,245), (255,228), (255,246), (256,252)]⟩,
  ⟨[1, -1], 3, 0, [(3,1), (10,2), (11,4), (12,6), (13,8), (21,4), (22,5), (24,6), (25,7), (27,8), (28,9), (38,20), (39,11), (39,21),
    (40,23), (41,12), (41,24), (42,26), (43,13), (43,27), (45,14), (47,15), (49,16), (51,17), (53,18), (55,19), (56,29), (57,30),
    (58,32), (59,33), (60,35), (61,36), (79,29), (80,30), (81,31), (83,32), (84,33), (85,34), (87,35), (88,36), (89,37), (94,44),
    (95,46), (96,48), (97,50), (98,52), (99,54), (100,62), (101,64), (102,66), (103,68), (104,70), (105,72), (106,74), (107,76), (114,78),
    (115,56), (115,79), (116,57), (116,80), (117,82), (118,58), (118,83), (119,59), (119,84), (120,86), (121,60), (121,87), (122,61), (122,88),
    (124,62), (125,63), (127,64), (128,65), (130,66), (131,67), (133,68), (134,69), (136,70), (137,71), (139,72), (140,73), (142,74), (143,75),
    (145,76), (146,77), (147,90), (148,91), (149,92), (160,90), (161,91), (162,92), (163,93), (164,123), (165,100), (165,124), (166,126), (167,101),
    (167,127), (168,129), (169,102), (169,130), (170,132), (171,103), (171,133), (172,135), (173,104), (173,136), (174,138), (175,105), (175,139), (176,141),
    (177,106), (177,142), (178,144), (179,107), (179,145), (181,108), (183,109), (185,110), (187,111), (189,112), (191,113), (192,150), (193,151), (194,153),
    (195,154), (196,156), (197,157), (204,159), (205,147), (205,160), (206,148), (206,161), (207,149), (207,162), (209,150), (210,151), (211,152), (213,153),
    (214,154), (215,155), (217,156), (218,157), (219,158), (220,180), (221,182), (222,184), (223,186), (224,188), (225,190), (226,198), (227,200), (228,202),
    (230,208), (231,192), (231,209), (232,193), (232,210), (233,212), (234,194), (234,213), (235,195), (235,214), (236,216), (237,196), (237,217), (238,197),
    (238,218), (240,198), (241,199), (243,200), (244,201), (246,202), (247,203), (248,239), (249,226), (249,240), (250,242), (251,227), (251,243), (252,245),
    (253,228), (253,246), (255,229), (256,254)]⟩]

/-- `make_matrix` in `sym-QS-impl.hpp`: `qs/qs-4ch-diag.dat`, `qs/qs-4ch-offdiag.dat`. -/
def ham_QS_4ch_plain : HamTable where
  variant := .plain
  hops := [
    ⟨.offdiag, 0, 0, [(1,8), (1,9), (2,13), (2,26), (2,27), (3,13), (3,27), (3,28), (4,16), (4,32), (4,33), (5,16), (5,33), (5,34),
    (6,18), (6,35), (6,36), (7,18), (7,36), (7,37), (8,19), (9,19), (10,42), (10,43), (11,48), (11,49), (11,58), (11,59),
    (12,52), (12,53), (12,60), (12,61), (13,54), (13,55), (14,64), (14,65), (15,68), (15,69), (15,72), (15,73), (16,70), (16,71),
    (17,74), (17,75), (18,76), (18,77), (20,48), (20,58), (20,82), (20,83), (21,48), (21,49), (21,58), (21,59), (21,83), (21,84),
    (22,49), (22,59), (22,84), (22,85), (23,52), (23,60), (23,86), (23,87), (24,52), (24,53), (24,60), (24,61), (24,87), (24,88),
    (25,53), (25,61), (25,88), (25,89), (26,54), (27,54), (27,55), (28,55), (29,68), (29,72), (29,90), (29,91), (30,68), (30,69),
    (30,72), (30,73), (30,91), (30,92), (31,69), (31,73), (31,92), (31,93), (32,70), (33,70), (33,71), (34,71), (35,76), (36,76),
    (36,77), (37,77), (38,96), (38,117), (38,118), (39,96), (39,118), (39,119), (40,98), (40,120), (40,121), (41,98), (41,121), (41,122),
    (42,99), (43,99), (44,101), (44,126), (44,127), (45,101), (45,127), (45,128), (46,103), (46,105), (46,132), (46,133), (46,138), (46,139),
    (47,103), (47,105), (47,133), (47,134), (47,139), (47,140), (48,104), (48,135), (48,136), (49,104), (49,136), (49,137), (50,106), (50,141),
    (50,142), (51,106), (51,142), (51,143), (52,107), (52,144), (52,145), (53,107), (53,145), (53,146), (56,103), (56,105), (56,132), (56,133),
    (56,138), (56,139), (56,147), (56,148), (57,103), (57,105), (57,133), (57,134), (57,139), (57,140), (57,148), (57,149), (58,104), (58,135),
    (58,136), (59,104), (59,136), (59,137), (60,107), (60,144), (60,145), (61,107), (61,145), (61,146), (62,109), (62,150), (62,151), (63,109),
    (63,151), (63,152), (64,110), (65,110), (66,111), (66,153), (66,154), (67,111), (67,154), (67,155), (68,112), (68,156), (68,157), (69,112),
    (69,157), (69,158), (72,112), (72,156), (72,157), (73,112), (73,157), (73,158), (74,113), (75,113), (78,132), (78,138), (78,147), (78,159),
    (78,160), (79,132), (79,133), (79,138), (79,139), (79,147), (79,148), (79,160), (79,161), (80,133), (80,134), (80,139), (80,140), (80,148),
    (80,149), (80,161), (80,162), (81,134), (81,140), (81,149), (81,162), (81,163), (82,135), (83,135), (83,136), (84,136), (84,137), (85,137),
    (86,144), (87,144), (87,145), (88,145), (88,146), (89,146), (90,156), (91,156), (91,157), (92,157), (92,158), (93,158), (94,166), (94,167),
    (95,170), (95,171), (95,174), (95,175), (96,172), (96,173), (97,176), (97,177), (98,178), (98,179), (100,182), (100,183), (100,192), (100,193),
    (101,184), (101,185), (102,186), (102,187), (102,194), (102,195), (103,188), (103,189), (103,196), (103,197), (105,188), (105,189), (105,196), (105,197),
    (106,190), (106,191), (108,198), (108,199), (109,200), (109,201), (111,202), (111,203), (114,170), (114,174), (114,204), (114,205), (115,170), (115,171),
    (115,174), (115,175), (115,205), (115,206), (116,171), (116,175), (116,206), (116,207), (117,172), (118,172), (118,173), (119,173), (120,178), (121,178),
    (121,179), (122,179), (123,182), (123,192), (123,208), (123,209), (124,182), (124,183), (124,192), (124,193), (124,209), (124,210), (125,183), (125,193),
    (125,210), (125,211), (126,184), (127,184), (127,185), (128,185), (129,186), (129,194), (129,212), (129,213), (130,186), (130,187), (130,194), (130,195),
    (130,213), (130,214), (131,187), (131,195), (131,214), (131,215), (132,188), (132,196), (132,216), (132,217), (133,188), (133,189), (133,196), (133,197),
    (133,217), (133,218), (134,189), (134,197), (134,218), (134,219), (138,188), (138,196), (138,216), (138,217), (139,188), (139,189), (139,196), (139,197),
    (139,217), (139,218), (140,189), (140,197), (140,218), (140,219), (141,190), (142,190), (142,191), (143,191), (147,196), (147,216), (147,217), (148,196),
    (148,197), (148,217), (148,218), (149,197), (149,218), (149,219), (150,200), (151,200), (151,201), (152,201), (153,202), (154,202), (154,203), (155,203),
    (159,216), (160,216), (160,217), (161,217), (161,218), (162,218), (162,219), (163,219), (164,221), (164,230), (164,231), (165,221), (165,231), (165,232),
    (166,222), (167,222), (168,223), (168,233), (168,234), (169,223), (169,234), (169,235), (170,224), (170,236), (170,237), (171,224), (171,237), (171,238),
    (174,224), (174,236), (174,237), (175,224), (175,237), (175,238), (176,225), (177,225), (180,226), (180,239), (180,240), (181,226), (181,240), (181,241),
    (182,227), (182,242), (182,243), (183,227), (183,243), (183,244), (186,228), (186,245), (186,246), (187,228), (187,246), (187,247), (192,227), (192,242),
    (192,243), (193,227), (193,243), (193,244), (194,228), (194,245), (194,246), (195,228), (195,246), (195,247), (198,229), (199,229), (204,236), (205,236),
    (205,237), (206,237), (206,238), (207,238), (208,242), (209,242), (209,243), (210,243), (210,244), (211,244), (212,245), (213,245), (213,246), (214,246),
    (214,247), (215,247), (220,248), (220,249), (221,250), (221,251), (223,252), (223,253), (226,254), (226,255), (230,250), (231,250), (231,251), (232,251),
    (233,252), (234,252), (234,253), (235,253), (239,254), (240,254), (240,255), (241,255), (248,256), (249,256)]⟩,
    ⟨.offdiag, 1, 0, [(1,6), (1,7), (2,12), (2,23), (2,24), (3,12), (3,24), (3,25), (4,15), (4,29), (4,30), (5,15), (5,30), (5,31),
    (6,17), (7,17), (8,18), (8,35), (8,36), (9,18), (9,36), (9,37), (10,40), (10,41), (11,46), (11,47), (11,56), (11,57),
    (12,50), (12,51), (13,52), (13,53), (13,60), (13,61), (14,62), (14,63), (15,66), (15,67), (16,68), (16,69), (16,72), (16,73),
    (18,74), (18,75), (19,76), (19,77), (20,46), (20,56), (20,78), (20,79), (21,46), (21,47), (21,56), (21,57), (21,79), (21,80),
    (22,47), (22,57), (22,80), (22,81), (23,50), (24,50), (24,51), (25,51), (26,52), (26,60), (26,86), (26,87), (27,52), (27,53),
    (27,60), (27,61), (27,87), (27,88), (28,53), (28,61), (28,88), (28,89), (29,66), (30,66), (30,67), (31,67), (32,68), (32,72),
    (32,90), (32,91), (33,68), (33,69), (33,72), (33,73), (33,91), (33,92), (34,69), (34,73), (34,92), (34,93), (35,74), (36,74),
    (36,75), (37,75), (38,95), (38,114), (38,115), (39,95), (39,115), (39,116), (40,97), (41,97), (42,98), (42,120), (42,121), (43,98),
    (43,121), (43,122), (44,100), (44,123), (44,124), (45,100), (45,124), (45,125), (46,102), (46,129), (46,130), (47,102), (47,130), (47,131),
    (48,103), (48,105), (48,132), (48,133), (48,138), (48,139), (49,103), (49,105), (49,133), (49,134), (49,139), (49,140), (52,106), (52,141),
    (52,142), (53,106), (53,142), (53,143), (54,107), (54,144), (54,145), (55,107), (55,145), (55,146), (56,102), (56,129), (56,130), (57,102),
    (57,130), (57,131), (58,103), (58,105), (58,132), (58,133), (58,138), (58,139), (58,147), (58,148), (59,103), (59,105), (59,133), (59,134),
    (59,139), (59,140), (59,148), (59,149), (60,106), (60,141), (60,142), (61,106), (61,142), (61,143), (62,108), (63,108), (64,109), (64,150),
    (64,151), (65,109), (65,151), (65,152), (68,111), (68,153), (68,154), (69,111), (69,154), (69,155), (70,112), (70,156), (70,157), (71,112),
    (71,157), (71,158), (72,111), (72,153), (72,154), (73,111), (73,154), (73,155), (76,113), (77,113), (78,129), (79,129), (79,130), (80,130),
    (80,131), (81,131), (82,132), (82,138), (82,147), (82,159), (82,160), (83,132), (83,133), (83,138), (83,139), (83,147), (83,148), (83,160),
    (83,161), (84,133), (84,134), (84,139), (84,140), (84,148), (84,149), (84,161), (84,162), (85,134), (85,140), (85,149), (85,162), (85,163),
    (86,141), (87,141), (87,142), (88,142), (88,143), (89,143), (90,153), (91,153), (91,154), (92,154), (92,155), (93,155), (94,164), (94,165),
    (95,168), (95,169), (96,170), (96,171), (96,174), (96,175), (98,176), (98,177), (99,178), (99,179), (100,180), (100,181), (101,182), (101,183),
    (101,192), (101,193), (103,186), (103,187), (103,194), (103,195), (104,188), (104,189), (104,196), (104,197), (105,186), (105,187), (105,194), (105,195),
    (107,190), (107,191), (109,198), (109,199), (110,200), (110,201), (112,202), (112,203), (114,168), (115,168), (115,169), (116,169), (117,170), (117,174),
    (117,204), (117,205), (118,170), (118,171), (118,174), (118,175), (118,205), (118,206), (119,171), (119,175), (119,206), (119,207), (120,176), (121,176),
    (121,177), (122,177), (123,180), (124,180), (124,181), (125,181), (126,182), (126,192), (126,208), (126,209), (127,182), (127,183), (127,192), (127,193),
    (127,209), (127,210), (128,183), (128,193), (128,210), (128,211), (132,186), (132,194), (132,212), (132,213), (133,186), (133,187), (133,194), (133,195),
    (133,213), (133,214), (134,187), (134,195), (134,214), (134,215), (135,188), (135,196), (135,216), (135,217), (136,188), (136,189), (136,196), (136,197),
    (136,217), (136,218), (137,189), (137,197), (137,218), (137,219), (138,186), (138,194), (138,212), (138,213), (139,186), (139,187), (139,194), (139,195),
    (139,213), (139,214), (140,187), (140,195), (140,214), (140,215), (144,190), (145,190), (145,191), (146,191), (147,194), (147,212), (147,213), (148,194),
    (148,195), (148,213), (148,214), (149,195), (149,214), (149,215), (150,198), (151,198), (151,199), (152,199), (156,202), (157,202), (157,203), (158,203),
    (159,212), (160,212), (160,213), (161,213), (161,214), (162,214), (162,215), (163,215), (164,220), (165,220), (166,221), (166,230), (166,231), (167,221),
    (167,231), (167,232), (170,223), (170,233), (170,234), (171,223), (171,234), (171,235), (172,224), (172,236), (172,237), (173,224), (173,237), (173,238),
    (174,223), (174,233), (174,234), (175,223), (175,234), (175,235), (178,225), (179,225), (182,226), (182,239), (182,240), (183,226), (183,240), (183,241),
    (184,227), (184,242), (184,243), (185,227), (185,243), (185,244), (188,228), (188,245), (188,246), (189,228), (189,246), (189,247), (192,226), (192,239),
    (192,240), (193,226), (193,240), (193,241), (196,228), (196,245), (196,246), (197,228), (197,246), (197,247), (200,229), (201,229), (204,233), (205,233),
    (205,234), (206,234), (206,235), (207,235), (208,239), (209,239), (209,240), (210,240), (210,241), (211,241), (216,245), (217,245), (217,246), (218,246),
    (218,247), (219,247), (221,248), (221,249), (222,250), (222,251), (224,252), (224,253), (227,254), (227,255), (230,248), (231,248), (231,249), (232,249),
    (236,252), (237,252), (237,253), (238,253), (242,254), (243,254), (243,255), (244,255), (250,256), (251,256)]⟩,
    ⟨.offdiag, 2, 0, [(1,4), (1,5), (2,11), (2,20), (2,21), (3,11), (3,21), (3,22), (4,14), (5,14), (6,15), (6,29), (6,30), (7,15),
    (7,30), (7,31), (8,16), (8,32), (8,33), (9,16), (9,33), (9,34), (10,38), (10,39), (11,44), (11,45), (12,46), (12,47),
    (12,56), (12,57), (13,48), (13,49), (13,58), (13,59), (15,62), (15,63), (16,64), (16,65), (17,66), (17,67), (18,68), (18,69),
    (19,70), (19,71), (20,44), (21,44), (21,45), (22,45), (23,46), (23,56), (23,78), (23,79), (24,46), (24,47), (24,56), (24,57),
    (24,79), (24,80), (25,47), (25,57), (25,80), (25,81), (26,48), (26,58), (26,82), (26,83), (27,48), (27,49), (27,58), (27,59),
    (27,83), (27,84), (28,49), (28,59), (28,84), (28,85), (29,62), (30,62), (30,63), (31,63), (32,64), (33,64), (33,65), (34,65),
    (35,72), (35,90), (35,91), (36,72), (36,73), (36,91), (36,92), (37,73), (37,92), (37,93), (38,94), (39,94), (40,95), (40,114),
    (40,115), (41,95), (41,115), (41,116), (42,96), (42,117), (42,118), (43,96), (43,118), (43,119), (46,100), (46,123), (46,124), (47,100),
    (47,124), (47,125), (48,101), (48,126), (48,127), (49,101), (49,127), (49,128), (50,102), (50,129), (50,130), (51,102), (51,130), (51,131),
    (52,103), (52,132), (52,133), (53,103), (53,133), (53,134), (54,104), (54,135), (54,136), (55,104), (55,136), (55,137), (56,100), (56,123),
    (56,124), (57,100), (57,124), (57,125), (58,101), (58,126), (58,127), (59,101), (59,127), (59,128), (60,105), (60,138), (60,139), (60,147),
    (60,148), (61,105), (61,139), (61,140), (61,148), (61,149), (66,108), (67,108), (68,109), (69,109), (70,110), (71,110), (72,150), (72,151),
    (73,151), (73,152), (74,111), (74,153), (74,154), (75,111), (75,154), (75,155), (76,112), (76,156), (76,157), (77,112), (77,157), (77,158),
    (78,123), (79,123), (79,124), (80,124), (80,125), (81,125), (82,126), (83,126), (83,127), (84,127), (84,128), (85,128), (86,138), (86,147),
    (86,159), (86,160), (87,138), (87,139), (87,147), (87,148), (87,160), (87,161), (88,139), (88,140), (88,148), (88,149), (88,161), (88,162),
    (89,140), (89,149), (89,162), (89,163), (90,150), (91,150), (91,151), (92,151), (92,152), (93,152), (95,164), (95,165), (96,166), (96,167),
    (97,168), (97,169), (98,170), (98,171), (99,172), (99,173), (102,180), (102,181), (103,182), (103,183), (104,184), (104,185), (105,192), (105,193),
    (106,186), (106,187), (106,194), (106,195), (107,188), (107,189), (107,196), (107,197), (111,198), (111,199), (112,200), (112,201), (113,202), (113,203),
    (114,164), (115,164), (115,165), (116,165), (117,166), (118,166), (118,167), (119,167), (120,174), (120,204), (120,205), (121,174), (121,175), (121,205),
    (121,206), (122,175), (122,206), (122,207), (129,180), (130,180), (130,181), (131,181), (132,182), (133,182), (133,183), (134,183), (135,184), (136,184),
    (136,185), (137,185), (138,192), (138,208), (138,209), (139,192), (139,193), (139,209), (139,210), (140,193), (140,210), (140,211), (141,186), (141,194),
    (141,212), (141,213), (142,186), (142,187), (142,194), (142,195), (142,213), (142,214), (143,187), (143,195), (143,214), (143,215), (144,188), (144,196),
    (144,216), (144,217), (145,188), (145,189), (145,196), (145,197), (145,217), (145,218), (146,189), (146,197), (146,218), (146,219), (147,192), (147,208),
    (147,209), (148,192), (148,193), (148,209), (148,210), (149,193), (149,210), (149,211), (153,198), (154,198), (154,199), (155,199), (156,200), (157,200),
    (157,201), (158,201), (159,208), (160,208), (160,209), (161,209), (161,210), (162,210), (162,211), (163,211), (168,220), (169,220), (170,221), (171,221),
    (172,222), (173,222), (174,230), (174,231), (175,231), (175,232), (176,223), (176,233), (176,234), (177,223), (177,234), (177,235), (178,224), (178,236),
    (178,237), (179,224), (179,237), (179,238), (186,226), (186,239), (186,240), (187,226), (187,240), (187,241), (188,227), (188,242), (188,243), (189,227),
    (189,243), (189,244), (190,228), (190,245), (190,246), (191,228), (191,246), (191,247), (194,226), (194,239), (194,240), (195,226), (195,240), (195,241),
    (196,227), (196,242), (196,243), (197,227), (197,243), (197,244), (202,229), (203,229), (204,230), (205,230), (205,231), (206,231), (206,232), (207,232),
    (212,239), (213,239), (213,240), (214,240), (214,241), (215,241), (216,242), (217,242), (217,243), (218,243), (218,244), (219,244), (223,248), (223,249),
    (224,250), (224,251), (225,252), (225,253), (228,254), (228,255), (233,248), (234,248), (234,249), (235,249), (236,250), (237,250), (237,251), (238,251),
    (245,254), (246,254), (246,255), (247,255), (252,256), (253,256)]⟩,
    ⟨.offdiag, 3, 0, [(1,2), (1,3), (2,10), (3,10), (4,11), (4,20), (4,21), (5,11), (5,21), (5,22), (6,12), (6,23), (6,24), (7,12),
    (7,24), (7,25), (8,13), (8,26), (8,27), (9,13), (9,27), (9,28), (11,38), (11,39), (12,40), (12,41), (13,42), (13,43),
    (14,44), (14,45), (15,46), (15,47), (16,48), (16,49), (17,50), (17,51), (18,52), (18,53), (19,54), (19,55), (20,38), (21,38),
    (21,39), (22,39), (23,40), (24,40), (24,41), (25,41), (26,42), (27,42), (27,43), (28,43), (29,56), (29,78), (29,79), (30,56),
    (30,57), (30,79), (30,80), (31,57), (31,80), (31,81), (32,58), (32,82), (32,83), (33,58), (33,59), (33,83), (33,84), (34,59),
    (34,84), (34,85), (35,60), (35,86), (35,87), (36,60), (36,61), (36,87), (36,88), (37,61), (37,88), (37,89), (44,94), (45,94),
    (46,95), (47,95), (48,96), (49,96), (50,97), (51,97), (52,98), (53,98), (54,99), (55,99), (56,114), (56,115), (57,115), (57,116),
    (58,117), (58,118), (59,118), (59,119), (60,120), (60,121), (61,121), (61,122), (62,100), (62,123), (62,124), (63,100), (63,124), (63,125),
    (64,101), (64,126), (64,127), (65,101), (65,127), (65,128), (66,102), (66,129), (66,130), (67,102), (67,130), (67,131), (68,103), (68,132),
    (68,133), (69,103), (69,133), (69,134), (70,104), (70,135), (70,136), (71,104), (71,136), (71,137), (72,105), (72,138), (72,139), (73,105),
    (73,139), (73,140), (74,106), (74,141), (74,142), (75,106), (75,142), (75,143), (76,107), (76,144), (76,145), (77,107), (77,145), (77,146),
    (78,114), (79,114), (79,115), (80,115), (80,116), (81,116), (82,117), (83,117), (83,118), (84,118), (84,119), (85,119), (86,120), (87,120),
    (87,121), (88,121), (88,122), (89,122), (90,147), (90,159), (90,160), (91,147), (91,148), (91,160), (91,161), (92,148), (92,149), (92,161),
    (92,162), (93,149), (93,162), (93,163), (100,164), (100,165), (101,166), (101,167), (102,168), (102,169), (103,170), (103,171), (104,172), (104,173),
    (105,174), (105,175), (106,176), (106,177), (107,178), (107,179), (108,180), (108,181), (109,182), (109,183), (110,184), (110,185), (111,186), (111,187),
    (112,188), (112,189), (113,190), (113,191), (123,164), (124,164), (124,165), (125,165), (126,166), (127,166), (127,167), (128,167), (129,168), (130,168),
    (130,169), (131,169), (132,170), (133,170), (133,171), (134,171), (135,172), (136,172), (136,173), (137,173), (138,174), (139,174), (139,175), (140,175),
    (141,176), (142,176), (142,177), (143,177), (144,178), (145,178), (145,179), (146,179), (147,204), (147,205), (148,205), (148,206), (149,206), (149,207),
    (150,192), (150,208), (150,209), (151,192), (151,193), (151,209), (151,210), (152,193), (152,210), (152,211), (153,194), (153,212), (153,213), (154,194),
    (154,195), (154,213), (154,214), (155,195), (155,214), (155,215), (156,196), (156,216), (156,217), (157,196), (157,197), (157,217), (157,218), (158,197),
    (158,218), (158,219), (159,204), (160,204), (160,205), (161,205), (161,206), (162,206), (162,207), (163,207), (180,220), (181,220), (182,221), (183,221),
    (184,222), (185,222), (186,223), (187,223), (188,224), (189,224), (190,225), (191,225), (192,230), (192,231), (193,231), (193,232), (194,233), (194,234),
    (195,234), (195,235), (196,236), (196,237), (197,237), (197,238), (198,226), (198,239), (198,240), (199,226), (199,240), (199,241), (200,227), (200,242),
    (200,243), (201,227), (201,243), (201,244), (202,228), (202,245), (202,246), (203,228), (203,246), (203,247), (208,230), (209,230), (209,231), (210,231),
    (210,232), (211,232), (212,233), (213,233), (213,234), (214,234), (214,235), (215,235), (216,236), (217,236), (217,237), (218,237), (218,238), (219,238),
    (226,248), (226,249), (227,250), (227,251), (228,252), (228,253), (229,254), (229,255), (239,248), (240,248), (240,249), (241,249), (242,250), (243,250),
    (243,251), (244,251), (245,252), (246,252), (246,253), (247,253), (254,256), (255,256)]⟩]
  siteHops := []
  occupations := [
    ⟨.both, 0, [(1,0), (2,0), (3,0), (4,0), (5,0), (6,0), (7,0), (8,2), (9,2), (10,0), (11,0), (12,0), (13,2), (14,0),
    (15,0), (16,2), (17,0), (18,2), (19,4), (20,0), (21,0), (22,0), (23,0), (24,0), (25,0), (26,2), (27,2), (28,2),
    (29,0), (30,0), (31,0), (32,2), (33,2), (34,2), (35,2), (36,2), (37,2), (38,0), (39,0), (40,0), (41,0), (42,2),
    (43,2), (44,0), (45,0), (46,0), (47,0), (48,2), (49,2), (50,0), (51,0), (52,2), (53,2), (54,4), (55,4), (56,0),
    (57,0), (58,2), (59,2), (60,2), (61,2), (62,0), (63,0), (64,2), (65,2), (66,0), (67,0), (68,2), (69,2), (70,4),
    (71,4), (72,2), (73,2), (74,2), (75,2), (76,4), (77,4), (78,0), (79,0), (80,0), (81,0), (82,2), (83,2), (84,2),
    (85,2), (86,2), (87,2), (88,2), (89,2), (90,2), (91,2), (92,2), (93,2), (94,0), (95,0), (96,2), (97,0), (98,2),
    (99,4), (100,0), (101,2), (102,0), (103,2), (104,4), (105,2), (106,2), (107,4), (108,0), (109,2), (110,4), (111,2), (112,4),
    (113,4), (114,0), (115,0), (116,0), (117,2), (118,2), (119,2), (120,2), (121,2), (122,2), (123,0), (124,0), (125,0), (126,2),
    (127,2), (128,2), (129,0), (130,0), (131,0), (132,2), (133,2), (134,2), (135,4), (136,4), (137,4), (138,2), (139,2), (140,2),
    (141,2), (142,2), (143,2), (144,4), (145,4), (146,4), (147,2), (148,2), (149,2), (150,2), (151,2), (152,2), (153,2), (154,2),
    (155,2), (156,4), (157,4), (158,4), (159,2), (160,2), (161,2), (162,2), (163,2), (164,0), (165,0), (166,2), (167,2), (168,0),
    (169,0), (170,2), (171,2), (172,4), (173,4), (174,2), (175,2), (176,2), (177,2), (178,4), (179,4), (180,0), (181,0), (182,2),
    (183,2), (184,4), (185,4), (186,2), (187,2), (188,4), (189,4), (190,4), (191,4), (192,2), (193,2), (194,2), (195,2), (196,4),
    (197,4), (198,2), (199,2), (200,4), (201,4), (202,4), (203,4), (204,2), (205,2), (206,2), (207,2), (208,2), (209,2), (210,2),
    (211,2), (212,2), (213,2), (214,2), (215,2), (216,4), (217,4), (218,4), (219,4), (220,0), (221,2), (222,4), (223,2), (224,4),
    (225,4), (226,2), (227,4), (228,4), (229,4), (230,2), (231,2), (232,2), (233,2), (234,2), (235,2), (236,4), (237,4), (238,4),
    (239,2), (240,2), (241,2), (242,4), (243,4), (244,4), (245,4), (246,4), (247,4), (248,2), (249,2), (250,4), (251,4), (252,4),
    (253,4), (254,4), (255,4), (256,4)]⟩,
    ⟨.both, 1, [(1,0), (2,0), (3,0), (4,0), (5,0), (6,2), (7,2), (8,0), (9,0), (10,0), (11,0), (12,2), (13,0), (14,0),
    (15,2), (16,0), (17,4), (18,2), (19,0), (20,0), (21,0), (22,0), (23,2), (24,2), (25,2), (26,0), (27,0), (28,0),
    (29,2), (30,2), (31,2), (32,0), (33,0), (34,0), (35,2), (36,2), (37,2), (38,0), (39,0), (40,2), (41,2), (42,0),
    (43,0), (44,0), (45,0), (46,2), (47,2), (48,0), (49,0), (50,4), (51,4), (52,2), (53,2), (54,0), (55,0), (56,2),
    (57,2), (58,0), (59,0), (60,2), (61,2), (62,2), (63,2), (64,0), (65,0), (66,4), (67,4), (68,2), (69,2), (70,0),
    (71,0), (72,2), (73,2), (74,4), (75,4), (76,2), (77,2), (78,2), (79,2), (80,2), (81,2), (82,0), (83,0), (84,0),
    (85,0), (86,2), (87,2), (88,2), (89,2), (90,2), (91,2), (92,2), (93,2), (94,0), (95,2), (96,0), (97,4), (98,2),
    (99,0), (100,2), (101,0), (102,4), (103,2), (104,0), (105,2), (106,4), (107,2), (108,4), (109,2), (110,0), (111,4), (112,2),
    (113,4), (114,2), (115,2), (116,2), (117,0), (118,0), (119,0), (120,2), (121,2), (122,2), (123,2), (124,2), (125,2), (126,0),
    (127,0), (128,0), (129,4), (130,4), (131,4), (132,2), (133,2), (134,2), (135,0), (136,0), (137,0), (138,2), (139,2), (140,2),
    (141,4), (142,4), (143,4), (144,2), (145,2), (146,2), (147,2), (148,2), (149,2), (150,2), (151,2), (152,2), (153,4), (154,4),
    (155,4), (156,2), (157,2), (158,2), (159,2), (160,2), (161,2), (162,2), (163,2), (164,2), (165,2), (166,0), (167,0), (168,4),
    (169,4), (170,2), (171,2), (172,0), (173,0), (174,2), (175,2), (176,4), (177,4), (178,2), (179,2), (180,4), (181,4), (182,2),
    (183,2), (184,0), (185,0), (186,4), (187,4), (188,2), (189,2), (190,4), (191,4), (192,2), (193,2), (194,4), (195,4), (196,2),
    (197,2), (198,4), (199,4), (200,2), (201,2), (202,4), (203,4), (204,2), (205,2), (206,2), (207,2), (208,2), (209,2), (210,2),
    (211,2), (212,4), (213,4), (214,4), (215,4), (216,2), (217,2), (218,2), (219,2), (220,4), (221,2), (222,0), (223,4), (224,2),
    (225,4), (226,4), (227,2), (228,4), (229,4), (230,2), (231,2), (232,2), (233,4), (234,4), (235,4), (236,2), (237,2), (238,2),
    (239,4), (240,4), (241,4), (242,2), (243,2), (244,2), (245,4), (246,4), (247,4), (248,4), (249,4), (250,2), (251,2), (252,4),
    (253,4), (254,4), (255,4), (256,4)]⟩,
    ⟨.both, 2, [(1,0), (2,0), (3,0), (4,2), (5,2), (6,0), (7,0), (8,0), (9,0), (10,0), (11,2), (12,0), (13,0), (14,4),
    (15,2), (16,2), (17,0), (18,0), (19,0), (20,2), (21,2), (22,2), (23,0), (24,0), (25,0), (26,0), (27,0), (28,0),
    (29,2), (30,2), (31,2), (32,2), (33,2), (34,2), (35,0), (36,0), (37,0), (38,2), (39,2), (40,0), (41,0), (42,0),
    (43,0), (44,4), (45,4), (46,2), (47,2), (48,2), (49,2), (50,0), (51,0), (52,0), (53,0), (54,0), (55,0), (56,2),
    (57,2), (58,2), (59,2), (60,0), (61,0), (62,4), (63,4), (64,4), (65,4), (66,2), (67,2), (68,2), (69,2), (70,2),
    (71,2), (72,2), (73,2), (74,0), (75,0), (76,0), (77,0), (78,2), (79,2), (80,2), (81,2), (82,2), (83,2), (84,2),
    (85,2), (86,0), (87,0), (88,0), (89,0), (90,2), (91,2), (92,2), (93,2), (94,4), (95,2), (96,2), (97,0), (98,0),
    (99,0), (100,4), (101,4), (102,2), (103,2), (104,2), (105,2), (106,0), (107,0), (108,4), (109,4), (110,4), (111,2), (112,2),
    (113,0), (114,2), (115,2), (116,2), (117,2), (118,2), (119,2), (120,0), (121,0), (122,0), (123,4), (124,4), (125,4), (126,4),
    (127,4), (128,4), (129,2), (130,2), (131,2), (132,2), (133,2), (134,2), (135,2), (136,2), (137,2), (138,2), (139,2), (140,2),
    (141,0), (142,0), (143,0), (144,0), (145,0), (146,0), (147,2), (148,2), (149,2), (150,4), (151,4), (152,4), (153,2), (154,2),
    (155,2), (156,2), (157,2), (158,2), (159,2), (160,2), (161,2), (162,2), (163,2), (164,4), (165,4), (166,4), (167,4), (168,2),
    (169,2), (170,2), (171,2), (172,2), (173,2), (174,2), (175,2), (176,0), (177,0), (178,0), (179,0), (180,4), (181,4), (182,4),
    (183,4), (184,4), (185,4), (186,2), (187,2), (188,2), (189,2), (190,0), (191,0), (192,4), (193,4), (194,2), (195,2), (196,2),
    (197,2), (198,4), (199,4), (200,4), (201,4), (202,2), (203,2), (204,2), (205,2), (206,2), (207,2), (208,4), (209,4), (210,4),
    (211,4), (212,2), (213,2), (214,2), (215,2), (216,2), (217,2), (218,2), (219,2), (220,4), (221,4), (222,4), (223,2), (224,2),
    (225,0), (226,4), (227,4), (228,2), (229,4), (230,4), (231,4), (232,4), (233,2), (234,2), (235,2), (236,2), (237,2), (238,2),
    (239,4), (240,4), (241,4), (242,4), (243,4), (244,4), (245,2), (246,2), (247,2), (248,4), (249,4), (250,4), (251,4), (252,2),
    (253,2), (254,4), (255,4), (256,4)]⟩,
    ⟨.both, 3, [(1,0), (2,2), (3,2), (4,0), (5,0), (6,0), (7,0), (8,0), (9,0), (10,4), (11,2), (12,2), (13,2), (14,0),
    (15,0), (16,0), (17,0), (18,0), (19,0), (20,2), (21,2), (22,2), (23,2), (24,2), (25,2), (26,2), (27,2), (28,2),
    (29,0), (30,0), (31,0), (32,0), (33,0), (34,0), (35,0), (36,0), (37,0), (38,4), (39,4), (40,4), (41,4), (42,4),
    (43,4), (44,2), (45,2), (46,2), (47,2), (48,2), (49,2), (50,2), (51,2), (52,2), (53,2), (54,2), (55,2), (56,2),
    (57,2), (58,2), (59,2), (60,2), (61,2), (62,0), (63,0), (64,0), (65,0), (66,0), (67,0), (68,0), (69,0), (70,0),
    (71,0), (72,0), (73,0), (74,0), (75,0), (76,0), (77,0), (78,2), (79,2), (80,2), (81,2), (82,2), (83,2), (84,2),
    (85,2), (86,2), (87,2), (88,2), (89,2), (90,0), (91,0), (92,0), (93,0), (94,4), (95,4), (96,4), (97,4), (98,4),
    (99,4), (100,2), (101,2), (102,2), (103,2), (104,2), (105,2), (106,2), (107,2), (108,0), (109,0), (110,0), (111,0), (112,0),
    (113,0), (114,4), (115,4), (116,4), (117,4), (118,4), (119,4), (120,4), (121,4), (122,4), (123,2), (124,2), (125,2), (126,2),
    (127,2), (128,2), (129,2), (130,2), (131,2), (132,2), (133,2), (134,2), (135,2), (136,2), (137,2), (138,2), (139,2), (140,2),
    (141,2), (142,2), (143,2), (144,2), (145,2), (146,2), (147,2), (148,2), (149,2), (150,0), (151,0), (152,0), (153,0), (154,0),
    (155,0), (156,0), (157,0), (158,0), (159,2), (160,2), (161,2), (162,2), (163,2), (164,4), (165,4), (166,4), (167,4), (168,4),
    (169,4), (170,4), (171,4), (172,4), (173,4), (174,4), (175,4), (176,4), (177,4), (178,4), (179,4), (180,2), (181,2), (182,2),
    (183,2), (184,2), (185,2), (186,2), (187,2), (188,2), (189,2), (190,2), (191,2), (192,2), (193,2), (194,2), (195,2), (196,2),
    (197,2), (198,0), (199,0), (200,0), (201,0), (202,0), (203,0), (204,4), (205,4), (206,4), (207,4), (208,2), (209,2), (210,2),
    (211,2), (212,2), (213,2), (214,2), (215,2), (216,2), (217,2), (218,2), (219,2), (220,4), (221,4), (222,4), (223,4), (224,4),
    (225,4), (226,2), (227,2), (228,2), (229,0), (230,4), (231,4), (232,4), (233,4), (234,4), (235,4), (236,4), (237,4), (238,4),
    (239,2), (240,2), (241,2), (242,2), (243,2), (244,2), (245,2), (246,2), (247,2), (248,4), (249,4), (250,4), (251,4), (252,4),
    (253,4), (254,2), (255,2), (256,4)]⟩]

/-- Class `SymmetryQS` with 4 channel(s). -/
def ham_QS_4ch : Ham where
  builtin := ⟨"QS", 4, fields_QS, tab_QS_4ch⟩
  blocks := fblocks_QS_4ch
  invarF := none
  guard := .plain
  variants := [ham_QS_4ch_plain]

/-- `recalc_irreduc` in `nrg-recalc-QSC3.hpp`: `qsc3-spinup0-a.dat`, `qsc3-spinup0-b.dat`, `qsc3-spinup0-c.dat`, `qsc3-spindown0-a.dat`, `qsc3-spindown0-b.dat`, `qsc3-spindown0-c.dat`, `qsc3-spinup1-a.dat`, `qsc3-spinup1-b.dat`, `qsc3-spinup1-c.dat`, `qsc3-spindown1-a.dat`, `qsc3-spindown1-b.dat`, `qsc3-spindown1-c.dat`, `qsc3-spinup2-a.dat`, `qsc3-spinup2-b.dat`, `qsc3-spinup2-c.dat`, `qsc3-spindown2-a.dat`, `qsc3-spindown2-b.dat`, `qsc3-spindown2-c.dat`. -/
def fblocks_QSC3_3ch : List FBlock := [
  ⟨[1, 1, 0], 0, 0, [(2,1), (8,3), (9,3), (10,5), (11,5), (12,7), (13,7), (17,4), (18,5), (20,6), (21,7), (23,8), (23,9), (23,15),
    (24,16), (25,8), (25,9), (25,15), (26,16), (27,10), (27,11), (27,18), (28,19), (29,10), (29,11), (29,18), (30,19), (31,11),
    (31,18), (32,19), (33,12), (33,13), (33,21), (34,22), (35,12), (35,13), (35,21), (36,22), (37,13), (37,21), (38,22), (39,14),
    (40,15), (41,16), (43,24), (43,26), (44,24), (44,26), (45,28), (45,30), (46,28), (46,30), (46,32), (47,34), (47,36), (48,34),
    (48,36), (48,38), (49,23), (49,25), (49,40), (50,24), (50,26), (50,41), (51,42), (52,27), (52,29), (52,31), (53,28), (53,30),
    (53,32), (55,33), (55,35), (55,37), (56,34), (56,36), (56,38), (58,43), (58,44), (60,45), (60,46), (60,53), (61,54), (62,47),
    (62,48), (62,56), (63,57), (64,59)]⟩,
  ⟨[1, 1, 0], 1, 0, [(2,1), (8,3), (9,3), (10,5), (11,5), (12,7), (13,7), (17,4), (18,5), (20,6), (21,7), (23,8), (23,9), (23,15),
    (24,16), (25,8), (25,9), (25,15), (26,16), (27,10), (27,11), (27,18), (28,19), (29,10), (29,11), (29,18), (30,19), (31,11),
    (31,18), (32,19), (33,12), (33,13), (33,21), (34,22), (35,12), (35,13), (35,21), (36,22), (37,13), (37,21), (38,22), (39,14),
    (40,15), (41,16), (43,24), (43,26), (44,24), (44,26), (45,28), (45,30), (46,28), (46,30), (46,32), (47,34), (47,36), (48,34),
    (48,36), (48,38), (49,23), (49,25), (49,40), (50,24), (50,26), (50,41), (51,42), (52,27), (52,29), (52,31), (53,28), (53,30),
    (53,32), (55,33), (55,35), (55,37), (56,34), (56,36), (56,38), (58,43), (58,44), (60,45), (60,46), (60,53), (61,54), (62,47),
    (62,48), (62,56), (63,57), (64,59)]⟩,
  ⟨[1, 1, 0], 2, 0, [(2,1), (8,3), (9,3), (10,5), (11,5), (12,7), (13,7), (17,4), (18,5), (20,6), (21,7), (23,8), (23,9), (23,15),
    (24,16), (25,8), (25,9), (25,15), (26,16), (27,10), (27,11), (27,18), (28,19), (29,10), (29,11), (29,18), (30,19), (31,11),
    (31,18), (32,19), (33,12), (33,13), (33,21), (34,22), (35,12), (35,13), (35,21), (36,22), (37,13), (37,21), (38,22), (39,14),
    (40,15), (41,16), (43,24), (43,26), (44,24), (44,26), (45,28), (45,30), (46,28), (46,30), (46,32), (47,34), (47,36), (48,34),
    (48,36), (48,38), (49,23), (49,25), (49,40), (50,24), (50,26), (50,41), (51,42), (52,27), (52,29), (52,31), (53,28), (53,30),
    (53,32), (55,33), (55,35), (55,37), (56,34), (56,36), (56,38), (58,43), (58,44), (60,45), (60,46), (60,53), (61,54), (62,47),
    (62,48), (62,56), (63,57), (64,59)]⟩,
  ⟨[1, -1, 0], 0, 0, [(3,1), (8,2), (9,2), (10,4), (11,4), (12,6), (13,6), (18,4), (19,5), (21,6), (22,7), (23,14), (24,8), (24,9),
    (24,15), (25,14), (26,8), (26,9), (26,15), (27,17), (28,10), (28,11), (28,18), (29,17), (30,10), (30,11), (30,18), (31,17),
    (32,11), (32,18), (33,20), (34,12), (34,13), (34,21), (35,20), (36,12), (36,13), (36,21), (37,20), (38,13), (38,21), (40,14),
    (41,15), (42,16), (43,23), (43,25), (44,23), (44,25), (45,27), (45,29), (46,27), (46,29), (46,31), (47,33), (47,35), (48,33),
    (48,35), (48,37), (49,39), (50,23), (50,25), (50,40), (51,24), (51,26), (51,41), (53,27), (53,29), (53,31), (54,28), (54,30),
    (54,32), (56,33), (56,35), (56,37), (57,34), (57,36), (57,38), (59,43), (59,44), (60,52), (61,45), (61,46), (61,53), (62,55),
    (63,47), (63,48), (63,56), (64,58)]⟩,
  ⟨[1, -1, 0], 1, 0, [(3,1), (8,2), (9,2), (10,4), (11,4), (12,6), (13,6), (18,4), (19,5), (21,6), (22,7), (23,14), (24,8), (24,9),
    (24,15), (25,14), (26,8), (26,9), (26,15), (27,17), (28,10), (28,11), (28,18), (29,17), (30,10), (30,11), (30,18), (31,17),
    (32,11), (32,18), (33,20), (34,12), (34,13), (34,21), (35,20), (36,12), (36,13), (36,21), (37,20), (38,13), (38,21), (40,14),
    (41,15), (42,16), (43,23), (43,25), (44,23), (44,25), (45,27), (45,29), (46,27), (46,29), (46,31), (47,33), (47,35), (48,33),
    (48,35), (48,37), (49,39), (50,23), (50,25), (50,40), (51,24), (51,26), (51,41), (53,27), (53,29), (53,31), (54,28), (54,30),
    (54,32), (56,33), (56,35), (56,37), (57,34), (57,36), (57,38), (59,43), (59,44), (60,52), (61,45), (61,46), (61,53), (62,55),
    (63,47), (63,48), (63,56), (64,58)]⟩,
  ⟨[1, -1, 0], 2, 0, [(3,1), (8,2), (9,2), (10,4), (11,4), (12,6), (13,6), (18,4), (19,5), (21,6), (22,7), (23,14), (24,8), (24,9),
    (24,15), (25,14), (26,8), (26,9), (26,15), (27,17), (28,10), (28,11), (28,18), (29,17), (30,10), (30,11), (30,18), (31,17),
    (32,11), (32,18), (33,20), (34,12), (34,13), (34,21), (35,20), (36,12), (36,13), (36,21), (37,20), (38,13), (38,21), (40,14),
    (41,15), (42,16), (43,23), (43,25), (44,23), (44,25), (45,27), (45,29), (46,27), (46,29), (46,31), (47,33), (47,35), (48,33),
    (48,35), (48,37), (49,39), (50,23), (50,25), (50,40), (51,24), (51,26), (51,41), (53,27), (53,29), (53,31), (54,28), (54,30),
    (54,32), (56,33), (56,35), (56,37), (57,34), (57,36), (57,38), (59,43), (59,44), (60,52), (61,45), (61,46), (61,53), (62,55),
    (63,47), (63,48), (63,56), (64,58)]⟩,
  ⟨[1, 1, 1], 0, 0, [(4,1), (8,7), (9,7), (10,3), (11,3), (12,5), (13,5), (14,6), (15,7), (17,2), (18,3), (23,12), (23,13), (23,21),
    (24,22), (25,12), (25,13), (25,21), (26,22), (27,8), (27,9), (27,15), (28,16), (29,8), (29,9), (29,15), (30,16), (31,9),
    (31,15), (32,16), (33,10), (33,11), (33,18), (34,19), (35,10), (35,11), (35,18), (36,19), (37,11), (37,18), (38,19), (39,20),
    (40,21), (41,22), (43,34), (43,36), (44,34), (44,36), (44,38), (45,24), (45,26), (46,24), (46,26), (47,28), (47,30), (48,28),
    (48,30), (48,32), (49,33), (49,35), (49,37), (50,34), (50,36), (50,38), (52,23), (52,25), (52,40), (53,24), (53,26), (53,41),
    (54,42), (55,27), (55,29), (55,31), (56,28), (56,30), (56,32), (58,47), (58,48), (58,56), (59,57), (60,43), (60,44), (60,50),
    (61,51), (62,45), (62,46), (64,63)]⟩,
  ⟨[1, 1, 1], 1, 0, [(4,1), (8,7), (9,7), (10,3), (11,3), (12,5), (13,5), (14,6), (15,7), (17,2), (18,3), (23,12), (23,13), (23,21),
    (24,22), (25,12), (25,13), (25,21), (26,22), (27,8), (27,9), (27,15), (28,16), (29,8), (29,9), (29,15), (30,16), (31,9),
    (31,15), (32,16), (33,10), (33,11), (33,18), (34,19), (35,10), (35,11), (35,18), (36,19), (37,11), (37,18), (38,19), (39,20),
    (40,21), (41,22), (43,34), (43,36), (44,34), (44,36), (44,38), (45,24), (45,26), (46,24), (46,26), (47,28), (47,30), (48,28),
    (48,30), (48,32), (49,33), (49,35), (49,37), (50,34), (50,36), (50,38), (52,23), (52,25), (52,40), (53,24), (53,26), (53,41),
    (54,42), (55,27), (55,29), (55,31), (56,28), (56,30), (56,32), (58,47), (58,48), (58,56), (59,57), (60,43), (60,44), (60,50),
    (61,51), (62,45), (62,46), (64,63)]⟩,
  ⟨[1, 1, 1], 2, 0, [(4,1), (8,7), (9,7), (10,3), (11,3), (12,5), (13,5), (14,6), (15,7), (17,2), (18,3), (23,12), (23,13), (23,21),
    (24,22), (25,12), (25,13), (25,21), (26,22), (27,8), (27,9), (27,15), (28,16), (29,8), (29,9), (29,15), (30,16), (31,9),
    (31,15), (32,16), (33,10), (33,11), (33,18), (34,19), (35,10), (35,11), (35,18), (36,19), (37,11), (37,18), (38,19), (39,20),
    (40,21), (41,22), (43,34), (43,36), (44,34), (44,36), (44,38), (45,24), (45,26), (46,24), (46,26), (47,28), (47,30), (48,28),
    (48,30), (48,32), (49,33), (49,35), (49,37), (50,34), (50,36), (50,38), (52,23), (52,25), (52,40), (53,24), (53,26), (53,41),
    (54,42), (55,27), (55,29), (55,31), (56,28), (56,30), (56,32), (58,47), (58,48), (58,56), (59,57), (60,43), (60,44), (60,50),
    (61,51), (62,45), (62,46), (64,63)]⟩,
  ⟨[1, -1, 1], 0, 0, [(5,1), (8,6), (9,6), (10,2), (11,2), (12,4), (13,4), (15,6), (16,7), (18,2), (19,3), (23,20), (24,12), (24,13),
    (24,21), (25,20), (26,12), (26,13), (26,21), (27,14), (28,8), (28,9), (28,15), (29,14), (30,8), (30,9), (30,15), (31,14),
    (32,9), (32,15), (33,17), (34,10), (34,11), (34,18), (35,17), (36,10), (36,11), (36,18), (37,17), (38,11), (38,18), (40,20),
    (41,21), (42,22), (43,33), (43,35), (44,33), (44,35), (44,37), (45,23), (45,25), (46,23), (46,25), (47,27), (47,29), (48,27),
    (48,29), (48,31), (50,33), (50,35), (50,37), (51,34), (51,36), (51,38), (52,39), (53,23), (53,25), (53,40), (54,24), (54,26),
    (54,41), (56,27), (56,29), (56,31), (57,28), (57,30), (57,32), (58,55), (59,47), (59,48), (59,56), (60,49), (61,43), (61,44),
    (61,50), (63,45), (63,46), (64,62)]⟩,
  ⟨[1, -1, 1], 1, 0, [(5,1), (8,6), (9,6), (10,2), (11,2), (12,4), (13,4), (15,6), (16,7), (18,2), (19,3), (23,20), (24,12), (24,13),
    (24,21), (25,20), (26,12), (26,13), (26,21), (27,14), (28,8), (28,9), (28,15), (29,14), (30,8), (30,9), (30,15), (31,14),
    (32,9), (32,15), (33,17), (34,10), (34,11), (34,18), (35,17), (36,10), (36,11), (36,18), (37,17), (38,11), (38,18), (40,20),
    (41,21), (42,22), (43,33), (43,35), (44,33), (44,35), (44,37), (45,23), (45,25), (46,23), (46,25), (47,27), (47,29), (48,27),
    (48,29), (48,31), (50,33), (50,35), (50,37), (51,34), (51,36), (51,38), (52,39), (53,23), (53,25), (53,40), (54,24), (54,26),
    (54,41), (56,27), (56,29), (56,31), (57,28), (57,30), (57,32), (58,55), (59,47), (59,48), (59,56), (60,49), (61,43), (61,44),
    (61,50), (63,45), (63,46), (64,62)]⟩,
  ⟨[1, -1, 1], 2, 0, [(5,1), (8,6), (9,6), (10,2), (11,2), (12,4), (13,4), (15,6), (16,7), (18,2), (19,3), (23,20), (24,12), (24,13),
    (24,21), (25,20), (26,12), (26,13), (26,21), (27,14), (28,8), (28,9), (28,15), (29,14), (30,8), (30,9), (30,15), (31,14),
    (32,9), (32,15), (33,17), (34,10), (34,11), (34,18), (35,17), (36,10), (36,11), (36,18), (37,17), (38,11), (38,18), (40,20),
    (41,21), (42,22), (43,33), (43,35), (44,33), (44,35), (44,37), (45,23), (45,25), (46,23), (46,25), (47,27), (47,29), (48,27),
    (48,29), (48,31), (50,33), (50,35), (50,37), (51,34), (51,36), (51,38), (52,39), (53,23), (53,25), (53,40), (54,24), (54,26),
    (54,41), (56,27), (56,29), (56,31), (57,28), (57,30), (57,32), (58,55), (59,47), (59,48), (59,56), (60,49), (61,43), (61,44),
    (61,50), (63,45), (63,46), (64,62)]⟩,
  ⟨[1, 1, 2], 0, 0, [(6,1), (8,5), (9,5), (10,7), (11,7), (12,3), (13,3), (14,4), (15,5), (20,2), (21,3), (23,10), (23,11), (23,18),
    (24,19), (25,10), (25,11), (25,18), (26,19), (27,12), (27,13), (27,21), (28,22), (29,12), (29,13), (29,21), (30,22), (31,13),
    (31,21), (32,22), (33,8), (33,9), (33,15), (34,16), (35,8), (35,9), (35,15), (36,16), (37,9), (37,15), (38,16), (39,17),
    (40,18), (41,19), (43,28), (43,30), (44,28), (44,30), (44,32), (45,34), (45,36), (46,34), (46,36), (46,38), (47,24), (47,26),
    (48,24), (48,26), (49,27), (49,29), (49,31), (50,28), (50,30), (50,32), (52,33), (52,35), (52,37), (53,34), (53,36), (53,38),
    (55,23), (55,25), (55,40), (56,24), (56,26), (56,41), (57,42), (58,45), (58,46), (58,53), (59,54), (60,47), (60,48), (62,43),
    (62,44), (62,50), (63,51), (64,61)]⟩,
  ⟨[1, 1, 2], 1, 0, [(6,1), (8,5), (9,5), (10,7), (11,7), (12,3), (13,3), (14,4), (15,5), (20,2), (21,3), (23,10), (23,11), (23,18),
    (24,19), (25,10), (25,11), (25,18), (26,19), (27,12), (27,13), (27,21), (28,22), (29,12), (29,13), (29,21), (30,22), (31,13),
    (31,21), (32,22), (33,8), (33,9), (33,15), (34,16), (35,8), (35,9), (35,15), (36,16), (37,9), (37,15), (38,16), (39,17),
    (40,18), (41,19), (43,28), (43,30), (44,28), (44,30), (44,32), (45,34), (45,36), (46,34), (46,36), (46,38), (47,24), (47,26),
    (48,24), (48,26), (49,27), (49,29), (49,31), (50,28), (50,30), (50,32), (52,33), (52,35), (52,37), (53,34), (53,36), (53,38),
    (55,23), (55,25), (55,40), (56,24), (56,26), (56,41), (57,42), (58,45), (58,46), (58,53), (59,54), (60,47), (60,48), (62,43),
    (62,44), (62,50), (63,51), (64,61)]⟩,
  ⟨[1, 1, 2], 2, 0, [(6,1), (8,5), (9,5), (10,7), (11,7), (12,3), (13,3), (14,4), (15,5), (20,2), (21,3), (23,10), (23,11), (23,18),
    (24,19), (25,10), (25,11), (25,18), (26,19), (27,12), (27,13), (27,21), (28,22), (29,12), (29,13), (29,21), (30,22), (31,13),
    (31,21), (32,22), (33,8), (33,9), (33,15), (34,16), (35,8), (35,9), (35,15), (36,16), (37,9), (37,15), (38,16), (39,17),
    (40,18), (41,19), (43,28), (43,30), (44,28), (44,30), (44,32), (45,34), (45,36), (46,34), (46,36), (46,38), (47,24), (47,26),
    (48,24), (48,26), (49,27), (49,29), (49,31), (50,28), (50,30), (50,32), (52,33), (52,35), (52,37), (53,34), (53,36), (53,38),
    (55,23), (55,25), (55,40), (56,24), (56,26), (56,41), (57,42), (58,45), (58,46), (58,53), (59,54), (60,47), (60,48), (62,43),
    (62,44), (62,50), (63,51), (64,61)]⟩,
  ⟨[1, -1, 2], 0, 0, [(7,1), (8,4), (9,4), (10,6), (11,6), (12,2), (13,2), (15,4), (16,5), (21,2), (22,3), (23,17), (24,10), (24,11),
    (24,18), (25,17), (26,10), (26,11), (26,18), (27,20), (28,12), (28,13), (28,21), (29,20), (30,12), (30,13), (30,21), (31,20),
    (32,13), (32,21), (33,14), (34,8), (34,9), (34,15), (35,14), (36,8), (36,9), (36,15), (37,14), (38,9), (38,15), (40,17),
    (41,18), (42,19), (43,27), (43,29), (44,27), (44,29), (44,31), (45,33), (45,35), (46,33), (46,35), (46,37), (47,23), (47,25),
    (48,23), (48,25), (50,27), (50,29), (50,31), (51,28), (51,30), (51,32), (53,33), (53,35), (53,37), (54,34), (54,36), (54,38),
    (55,39), (56,23), (56,25), (56,40), (57,24), (57,26), (57,41), (58,52), (59,45), (59,46), (59,53), (61,47), (61,48), (62,49),
    (63,43), (63,44), (63,50), (64,60)]⟩,
  ⟨[1, -1, 2], 1, 0, [(7,1), (8,4), (9,4), (10,6), (11,6), (12,2), (13,2), (15,4), (16,5), (21,2), (22,3), (23,17), (24,10), (24,11),
    (24,18), (25,17), (26,10), (26,11), (26,18), (27,20), (28,12), (28,13), (28,21), (29,20), (30,12), (30,13), (30,21), (31,20),
    (32,13), (32,21), (33,14), (34,8), (34,9), (34,15), (35,14), (36,8), (36,9), (36,15), (37,14), (38,9), (38,15), (40,17),
    (41,18), (42,19), (43,27), (43,29), (44,27), (44,29), (44,31), (45,33), (45,35), (46,33), (46,35), (46,37), (47,23), (47,25),
    (48,23), (48,25), (50,27), (50,29), (50,31), (51,28), (51,30), (51,32), (53,33), (53,35), (53,37), (54,34), (54,36), (54,38),
    (55,39), (56,23), (56,25), (56,40), (57,24), (57,26), (57,41), (58,52), (59,45), (59,46), (59,53), (61,47), (61,48), (62,49),
    (63,43), (63,44), (63,50), (64,60)]⟩,
  ⟨[1, -1, 2], 2, 0, [(7,1), (8,4), (9,4), (10,6), (11,6), (12,2), (13,2), (15,4), (16,5), (21,2), (22,3), (23,17), (24,10), (24,11),
    (24,18), (25,17), (26,10), (26,11), (26,18), (27,20), (28,12), (28,13), (28,21), (29,20), (30,12), (30,13), (30,21), (31,20),
    (32,13), (32,21), (33,14), (34,8), (34,9), (34,15), (35,14), (36,8), (36,9), (36,15), (37,14), (38,9), (38,15), (40,17),
    (41,18), (42,19), (43,27), (43,29), (44,27), (44,29), (44,31), (45,33), (45,35), (46,33), (46,35), (46,37), (47,23), (47,25),
    (48,23), (48,25), (50,27), (50,29), (50,31), (51,28), (51,30), (51,32), (53,33), (53,35), (53,37), (54,34), (54,36), (54,38),
    (55,39), (56,23), (56,25), (56,40), (57,24), (57,26), (57,41), (58,52), (59,45), (59,46), (59,53), (61,47), (61,48), (62,49),
    (63,43), (63,44), (63,50), (64,60)]⟩]

/-- `make_matrix` in `sym-QSC3-impl.hpp`: `qsc3/qsc3-diag.dat`, `qsc3/qsc3-offdiag.dat`. -/
def ham_QSC3_3ch_plain : HamTable where
  variant := .plain
  hops := [
    ⟨.offdiag, 0, 0, [(1,2), (1,3), (1,4), (1,5), (1,6), (1,7), (2,8), (2,9), (2,10), (2,11), (2,12), (2,13), (2,17), (2,18),
    (2,20), (2,21), (3,8), (3,9), (3,10), (3,11), (3,12), (3,13), (3,18), (3,19), (3,21), (3,22), (4,8), (4,9),
    (4,10), (4,11), (4,12), (4,13), (4,14), (4,15), (4,17), (4,18), (5,8), (5,9), (5,10), (5,11), (5,12), (5,13),
    (5,15), (5,16), (5,18), (5,19), (6,8), (6,9), (6,10), (6,11), (6,12), (6,13), (6,14), (6,15), (6,20), (6,21),
    (7,8), (7,9), (7,10), (7,11), (7,12), (7,13), (7,15), (7,16), (7,21), (7,22), (8,23), (8,24), (8,25), (8,26),
    (8,27), (8,28), (8,29), (8,30), (8,33), (8,34), (8,35), (8,36), (9,23), (9,24), (9,25), (9,26), (9,27), (9,28),
    (9,29), (9,30), (9,31), (9,32), (9,33), (9,34), (9,35), (9,36), (9,37), (9,38), (10,23), (10,24), (10,25), (10,26),
    (10,27), (10,28), (10,29), (10,30), (10,33), (10,34), (10,35), (10,36), (11,23), (11,24), (11,25), (11,26), (11,27), (11,28),
    (11,29), (11,30), (11,31), (11,32), (11,33), (11,34), (11,35), (11,36), (11,37), (11,38), (12,23), (12,24), (12,25), (12,26),
    (12,27), (12,28), (12,29), (12,30), (12,33), (12,34), (12,35), (12,36), (13,23), (13,24), (13,25), (13,26), (13,27), (13,28),
    (13,29), (13,30), (13,31), (13,32), (13,33), (13,34), (13,35), (13,36), (13,37), (13,38), (14,23), (14,25), (14,27), (14,29),
    (14,31), (14,33), (14,35), (14,37), (14,39), (14,40), (15,23), (15,24), (15,25), (15,26), (15,27), (15,28), (15,29), (15,30),
    (15,31), (15,32), (15,33), (15,34), (15,35), (15,36), (15,37), (15,38), (15,40), (15,41), (16,24), (16,26), (16,28), (16,30),
    (16,32), (16,34), (16,36), (16,38), (16,41), (16,42), (17,23), (17,25), (17,27), (17,29), (17,31), (17,33), (17,35), (17,37),
    (17,39), (17,40), (18,23), (18,24), (18,25), (18,26), (18,27), (18,28), (18,29), (18,30), (18,31), (18,32), (18,33), (18,34),
    (18,35), (18,36), (18,37), (18,38), (18,40), (18,41), (19,24), (19,26), (19,28), (19,30), (19,32), (19,34), (19,36), (19,38),
    (19,41), (19,42), (20,23), (20,25), (20,27), (20,29), (20,31), (20,33), (20,35), (20,37), (20,39), (20,40), (21,23), (21,24),
    (21,25), (21,26), (21,27), (21,28), (21,29), (21,30), (21,31), (21,32), (21,33), (21,34), (21,35), (21,36), (21,37), (21,38),
    (21,40), (21,41), (22,24), (22,26), (22,28), (22,30), (22,32), (22,34), (22,36), (22,38), (22,41), (22,42), (23,43), (23,44),
    (23,45), (23,46), (23,47), (23,48), (23,49), (23,50), (23,52), (23,53), (23,55), (23,56), (24,43), (24,44), (24,45), (24,46),
    (24,47), (24,48), (24,50), (24,51), (24,53), (24,54), (24,56), (24,57), (25,43), (25,44), (25,45), (25,46), (25,47), (25,48),
    (25,49), (25,50), (25,52), (25,53), (25,55), (25,56), (26,43), (26,44), (26,45), (26,46), (26,47), (26,48), (26,50), (26,51),
    (26,53), (26,54), (26,56), (26,57), (27,43), (27,44), (27,45), (27,46), (27,47), (27,48), (27,49), (27,50), (27,52), (27,53),
    (27,55), (27,56), (28,43), (28,44), (28,45), (28,46), (28,47), (28,48), (28,50), (28,51), (28,53), (28,54), (28,56), (28,57),
    (29,43), (29,44), (29,45), (29,46), (29,47), (29,48), (29,49), (29,50), (29,52), (29,53), (29,55), (29,56), (30,43), (30,44),
    (30,45), (30,46), (30,47), (30,48), (30,50), (30,51), (30,53), (30,54), (30,56), (30,57), (31,44), (31,46), (31,48), (31,49),
    (31,50), (31,52), (31,53), (31,55), (31,56), (32,44), (32,46), (32,48), (32,50), (32,51), (32,53), (32,54), (32,56), (32,57),
    (33,43), (33,44), (33,45), (33,46), (33,47), (33,48), (33,49), (33,50), (33,52), (33,53), (33,55), (33,56), (34,43), (34,44),
    (34,45), (34,46), (34,47), (34,48), (34,50), (34,51), (34,53), (34,54), (34,56), (34,57), (35,43), (35,44), (35,45), (35,46),
    (35,47), (35,48), (35,49), (35,50), (35,52), (35,53), (35,55), (35,56), (36,43), (36,44), (36,45), (36,46), (36,47), (36,48),
    (36,50), (36,51), (36,53), (36,54), (36,56), (36,57), (37,44), (37,46), (37,48), (37,49), (37,50), (37,52), (37,53), (37,55),
    (37,56), (38,44), (38,46), (38,48), (38,50), (38,51), (38,53), (38,54), (38,56), (38,57), (39,49), (39,52), (39,55), (40,49),
    (40,50), (40,52), (40,53), (40,55), (40,56), (41,50), (41,51), (41,53), (41,54), (41,56), (41,57), (42,51), (42,54), (42,57),
    (43,58), (43,59), (43,60), (43,61), (43,62), (43,63), (44,58), (44,59), (44,60), (44,61), (44,62), (44,63), (45,58), (45,59),
    (45,60), (45,61), (45,62), (45,63), (46,58), (46,59), (46,60), (46,61), (46,62), (46,63), (47,58), (47,59), (47,60), (47,61),
    (47,62), (47,63), (48,58), (48,59), (48,60), (48,61), (48,62), (48,63), (49,60), (49,62), (50,60), (50,61), (50,62), (50,63),
    (51,61), (51,63), (52,58), (52,60), (53,58), (53,59), (53,60), (53,61), (54,59), (54,61), (55,58), (55,62), (56,58), (56,59),
    (56,62), (56,63), (57,59), (57,63), (58,64), (59,64), (60,64), (61,64), (62,64), (63,64)]⟩,
    ⟨.offdiag, 1, 0, [(1,2), (1,3), (1,4), (1,5), (1,6), (1,7), (2,8), (2,9), (2,10), (2,11), (2,12), (2,13), (2,17), (2,18),
    (2,20), (2,21), (3,8), (3,9), (3,10), (3,11), (3,12), (3,13), (3,18), (3,19), (3,21), (3,22), (4,8), (4,9),
    (4,10), (4,11), (4,12), (4,13), (4,14), (4,15), (4,17), (4,18), (5,8), (5,9), (5,10), (5,11), (5,12), (5,13),
    (5,15), (5,16), (5,18), (5,19), (6,8), (6,9), (6,10), (6,11), (6,12), (6,13), (6,14), (6,15), (6,20), (6,21),
    (7,8), (7,9), (7,10), (7,11), (7,12), (7,13), (7,15), (7,16), (7,21), (7,22), (8,23), (8,24), (8,25), (8,26),
    (8,27), (8,28), (8,29), (8,30), (8,33), (8,34), (8,35), (8,36), (9,23), (9,24), (9,25), (9,26), (9,27), (9,28),
    (9,29), (9,30), (9,31), (9,32), (9,33), (9,34), (9,35), (9,36), (9,37), (9,38), (10,23), (10,24), (10,25), (10,26),
    (10,27), (10,28), (10,29), (10,30), (10,33), (10,34), (10,35), (10,36), (11,23), (11,24), (11,25), (11,26), (11,27), (11,28),
    (11,29), (11,30), (11,31), (11,32), (11,33), (11,34), (11,35), (11,36), (11,37), (11,38), (12,23), (12,24), (12,25), (12,26),
    (12,27), (12,28), (12,29), (12,30), (12,33), (12,34), (12,35), (12,36), (13,23), (13,24), (13,25), (13,26), (13,27), (13,28),
    (13,29), (13,30), (13,31), (13,32), (13,33), (13,34), (13,35), (13,36), (13,37), (13,38), (14,23), (14,25), (14,27), (14,29),
    (14,31), (14,33), (14,35), (14,37), (14,39), (14,40), (15,23), (15,24), (15,25), (15,26), (15,27), (15,28), (15,29), (15,30),
    (15,31), (15,32), (15,33), (15,34), (15,35), (15,36), (15,37), (15,38), (15,40), (15,41), (16,24), (16,26), (16,28), (16,30),
    (16,32), (16,34), (16,36), (16,38), (16,41), (16,42), (17,23), (17,25), (17,27), (17,29), (17,31), (17,33), (17,35), (17,37),
    (17,39), (17,40), (18,23), (18,24), (18,25), (18,26), (18,27), (18,28), (18,29), (18,30), (18,31), (18,32), (18,33), (18,34),
    (18,35), (18,36), (18,37), (18,38), (18,40), (18,41), (19,24), (19,26), (19,28), (19,30), (19,32), (19,34), (19,36), (19,38),
    (19,41), (19,42), (20,23), (20,25), (20,27), (20,29), (20,31), (20,33), (20,35), (20,37), (20,39), (20,40), (21,23), (21,24),
    (21,25), (21,26), (21,27), (21,28), (21,29), (21,30), (21,31), (21,32), (21,33), (21,34), (21,35), (21,36), (21,37), (21,38),
    (21,40), (21,41), (22,24), (22,26), (22,28), (22,30), (22,32), (22,34), (22,36), (22,38), (22,41), (22,42), (23,43), (23,44),
    (23,45), (23,46), (23,47), (23,48), (23,49), (23,50), (23,52), (23,53), (23,55), (23,56), (24,43), (24,44), (24,45), (24,46),
    (24,47), (24,48), (24,50), (24,51), (24,53), (24,54), (24,56), (24,57), (25,43), (25,44), (25,45), (25,46), (25,47), (25,48),
    (25,49), (25,50), (25,52), (25,53), (25,55), (25,56), (26,43), (26,44), (26,45), (26,46), (26,47), (26,48), (26,50), (26,51),
    (26,53), (26,54), (26,56), (26,57), (27,43), (27,44), (27,45), (27,46), (27,47), (27,48), (27,49), (27,50), (27,52), (27,53),
    (27,55), (27,56), (28,43), (28,44), (28,45), (28,46), (28,47), (28,48), (28,50), (28,51), (28,53), (28,54), (28,56), (28,57),
    (29,43), (29,44), (29,45), (29,46), (29,47), (29,48), (29,49), (29,50), (29,52), (29,53), (29,55), (29,56), (30,43), (30,44),
    (30,45), (30,46), (30,47), (30,48), (30,50), (30,51), (30,53), (30,54), (30,56), (30,57), (31,44), (31,46), (31,48), (31,49),
    (31,50), (31,52), (31,53), (31,55), (31,56), (32,44), (32,46), (32,48), (32,50), (32,51), (32,53), (32,54), (32,56), (32,57),
    (33,43), (33,44), (33,45), (33,46), (33,47), (33,48), (33,49), (33,50), (33,52), (33,53), (33,55), (33,56), (34,43), (34,44),
    (34,45), (34,46), (34,47), (34,48), (34,50), (34,51), (34,53), (34,54), (34,56), (34,57), (35,43), (35,44), (35,45), (35,46),
    (35,47), (35,48), (35,49), (35,50), (35,52), (35,53), (35,55), (35,56), (36,43), (36,44), (36,45), (36,46), (36,47), (36,48),
    (36,50), (36,51), (36,53), (36,54), (36,56), (36,57), (37,44), (37,46), (37,48), (37,49), (37,50), (37,52), (37,53), (37,55),
    (37,56), (38,44), (38,46), (38,48), (38,50), (38,51), (38,53), (38,54), (38,56), (38,57), (39,49), (39,52), (39,55), (40,49),
    (40,50), (40,52), (40,53), (40,55), (40,56), (41,50), (41,51), (41,53), (41,54), (41,56), (41,57), (42,51), (42,54), (42,57),
    (43,58), (43,59), (43,60), (43,61), (43,62), (43,63), (44,58), (44,59), (44,60), (44,61), (44,62), (44,63), (45,58), (45,59),
    (45,60), (45,61), (45,62), (45,63), (46,58), (46,59), (46,60), (46,61), (46,62), (46,63), (47,58), (47,59), (47,60), (47,61),
    (47,62), (47,63), (48,58), (48,59), (48,60), (48,61), (48,62), (48,63), (49,60), (49,62), (50,60), (50,61), (50,62), (50,63),
    (51,61), (51,63), (52,58), (52,60), (53,58), (53,59), (53,60), (53,61), (54,59), (54,61), (55,58), (55,62), (56,58), (56,59),
    (56,62), (56,63), (57,59), (57,63), (58,64), (59,64), (60,64), (61,64), (62,64), (63,64)]⟩,
    ⟨.offdiag, 2, 0, [(1,2), (1,3), (1,4), (1,5), (1,6), (1,7), (2,8), (2,9), (2,10), (2,11), (2,12), (2,13), (2,17), (2,18),
    (2,20), (2,21), (3,8), (3,9), (3,10), (3,11), (3,12), (3,13), (3,18), (3,19), (3,21), (3,22), (4,8), (4,9),
    (4,10), (4,11), (4,12), (4,13), (4,14), (4,15), (4,17), (4,18), (5,8), (5,9), (5,10), (5,11), (5,12), (5,13),
    (5,15), (5,16), (5,18), (5,19), (6,8), (6,9), (6,10), (6,11), (6,12), (6,13), (6,14), (6,15), (6,20), (6,21),
    (7,8), (7,9), (7,10), (7,11), (7,12), (7,13), (7,15), (7,16), (7,21), (7,22), (8,23), (8,24), (8,25), (8,26),
    (8,27), (8,28), (8,29), (8,30), (8,33), (8,34), (8,35), (8,36), (9,23), (9,24), (9,25), (9,26), (9,27), (9,28),
    (9,29), (9,30), (9,31), (9,32), (9,33), (9,34), (9,35), (9,36), (9,37), (9,38), (10,23), (10,24), (10,25), (10,26),
    (10,27), (10,28), (10,29), (10,30), (10,33), (10,34), (10,35), (10,36), (11,23), (11,24), (11,25), (11,26), (11,27), (11,28),
    (11,29), (11,30), (11,31), (11,32), (11,33), (11,34), (11,35), (11,36), (11,37), (11,38), (12,23), (12,24), (12,25), (12,26),
    (12,27), (12,28), (12,29), (12,30), (12,33), (12,34), (12,35), (12,36), (13,23), (13,24), (13,25), (13,26), (13,27), (13,28),
    (13,29), (13,30), (13,31), (13,32), (13,33), (13,34), (13,35), (13,36), (13,37), (13,38), (14,23), (14,25), (14,27), (14,29),
    (14,31), (14,33), (14,35), (14,37), (14,39), (14,40), (15,23), (15,24), (15,25), (15,26), (15,27), (15,28), (15,29), (15,30),
    (15,31), (15,32), (15,33), (15,34), (15,35), (15,36), (15,37), (15,38), (15,40), (15,41), (16,24), (16,26), (16,28), (16,30),
    (16,32), (16,34), (16,36), (16,38), (16,41), (16,42), (17,23), (17,25), (17,27), (17,29), (17,31), (17,33), (17,35), (17,37),
    (17,39), (17,40), (18,23), (18,24), (18,25), (18,26), (18,27), (18,28), (18,29), (18,30), (18,31), (18,32), (18,33), (18,34),
    (18,35), (18,36), (18,37), (18,38), (18,40), (18,41), (19,24), (19,26), (19,28), (19,30), (19,32), (19,34), (19,36), (19,38),
    (19,41), (19,42), (20,23), (20,25), (20,27), (20,29), (20,31), (20,33), (20,35), (20,37), (20,39), (20,40), (21,23), (21,24),
    (21,25), (21,26), (21,27), (21,28), (21,29), (21,30), (21,31), (21,32), (21,33), (21,34), (21,35), (21,36), (21,37), (21,38),
    (21,40), (21,41), (22,24), (22,26), (22,28), (22,30), (22,32), (22,34), (22,36), (22,38), (22,41), (22,42), (23,43), (23,44),
    (23,45), (23,46), (23,47), (23,48), (23,49), (23,50), (23,52), (23,53), (23,55), (23,56), (24,43), (24,44), (24,45), (24,46),
    (24,47), (24,48), (24,50), (24,51), (24,53), (24,54), (24,56), (24,57), (25,43), (25,44), (25,45), (25,46), (25,47), (25,48),
    (25,49), (25,50), (25,52), (25,53), (25,55), (25,56), (26,43), (26,44), (26,45), (26,46), (26,47), (26,48), (26,50), (26,51),
    (26,53), (26,54), (26,56), (26,57), (27,43), (27,44), (27,45), (27,46), (27,47), (27,48), (27,49), (27,50), (27,52), (27,53),
    (27,55), (27,56), (28,43), (28,44), (28,45), (28,46), (28,47), (28,48), (28,50), (28,51), (28,53), (28,54), (28,56), (28,57),
    (29,43), (29,44), (29,45), (29,46), (29,47), (29,48), (29,49), (29,50), (29,52), (29,53), (29,55), (29,56), (30,43), (30,44),
    (30,45), (30,46), (30,47), (30,48), (30,50), (30,51), (30,53), (30,54), (30,56), (30,57), (31,44), (31,46), (31,48), (31,49),
    (31,50), (31,52), (31,53), (31,55), (31,56), (32,44), (32,46), (32,48), (32,50), (32,51), (32,53), (32,54), (32,56), (32,57),
    (33,43), (33,44), (33,45), (33,46), (33,47), (33,48), (33,49), (33,50), (33,52), (33,53), (33,55), (33,56), (34,43), (34,44),
    (34,45), (34,46), (34,47), (34,48), (34,50), (34,51), (34,53), (34,54), (34,56), (34,57), (35,43), (35,44), (35,45), (35,46),
    (35,47), (35,48), (35,49), (35,50), (35,52), (35,53), (35,55), (35,56), (36,43), (36,44), (36,45), (36,46), (36,47), (36,48),
    (36,50), (36,51), (36,53), (36,54), (36,56), (36,57), (37,44), (37,46), (37,48), (37,49), (37,50), (37,52), (37,53), (37,55),
    (37,56), (38,44), (38,46), (38,48), (38,50), (38,51), (38,53), (38,54), (38,56), (38,57), (39,49), (39,52), (39,55), (40,49),
    (40,50), (40,52), (40,53), (40,55), (40,56), (41,50), (41,51), (41,53), (41,54), (41,56), (41,57), (42,51), (42,54), (42,57),
    (43,58), (43,59), (43,60), (43,61), (43,62), (43,63), (44,58), (44,59), (44,60), (44,61), (44,62), (44,63), (45,58), (45,59),
    (45,60), (45,61), (45,62), (45,63), (46,58), (46,59), (46,60), (46,61), (46,62), (46,63), (47,58), (47,59), (47,60), (47,61),
    (47,62), (47,63), (48,58), (48,59), (48,60), (48,61), (48,62), (48,63), (49,60), (49,62), (50,60), (50,61), (50,62), (50,63),
    (51,61), (51,63), (52,58), (52,60), (53,58), (53,59), (53,60), (53,61), (54,59), (54,61), (55,58), (55,62), (56,58), (56,59),
    (56,62), (56,63), (57,59), (57,63), (58,64), (59,64), (60,64), (61,64), (62,64), (63,64)]⟩]
  siteHops := []
  occupations := [
    ⟨.both, 0, [(1,0), (2,2), (3,2), (4,2), (5,2), (6,2), (7,2), (8,4), (9,4), (10,4), (11,4), (12,4), (13,4), (14,4),
    (15,4), (16,4), (17,4), (18,4), (19,4), (20,4), (21,4), (22,4), (23,6), (24,6), (25,6), (26,6), (27,6), (28,6),
    (29,6), (30,6), (31,6), (32,6), (33,6), (34,6), (35,6), (36,6), (37,6), (38,6), (39,6), (40,6), (41,6), (42,6),
    (43,8), (44,8), (45,8), (46,8), (47,8), (48,8), (49,8), (50,8), (51,8), (52,8), (53,8), (54,8), (55,8), (56,8),
    (57,8), (58,10), (59,10), (60,10), (61,10), (62,10), (63,10), (64,12)]⟩]

/-- Class `SymmetryQSC3` with 3 channel(s). -/
def ham_QSC3_3ch : Ham where
  builtin := ⟨"QSC3", 3, fields_QSC3, tab_QSC3_3ch⟩
  blocks := fblocks_QSC3_3ch
  invarF := none
  guard := .plain
  variants := [ham_QSC3_3ch_plain]

/-- `recalc_irreduc` in `nrg-recalc-QSLR.hpp`: `qslr-2ch-spinupa.dat`, `qslr-2ch-spinupb.dat`, `qslr-2ch-spindowna.dat`, `qslr-2ch-spindownb.dat`, `qslr-2ch-spinupdiffa.dat`, `qslr-2ch-spinupdiffb.dat`, `qslr-2ch-spindowndiffa.dat`, `qslr-2ch-spindowndiffb.dat`. -/
def fblocks_QSLR_2ch : List FBlock := [
  ⟨[1, 1, 1], 0, 0, [(4,1), (6,3), (7,5), (8,5), (9,2), (10,3), (12,6), (12,10), (13,11), (14,7), (14,8), (16,15)]⟩,
  ⟨[1, 1, 1], 1, 0, [(4,1), (6,3), (7,5), (8,5), (9,2), (10,3), (12,6), (12,10), (13,11), (14,7), (14,8), (16,15)]⟩,
  ⟨[1, -1, 1], 0, 0, [(5,1), (6,2), (7,4), (8,4), (10,2), (11,3), (12,9), (13,6), (13,10), (15,7), (15,8), (16,14)]⟩,
  ⟨[1, -1, 1], 1, 0, [(5,1), (6,2), (7,4), (8,4), (10,2), (11,3), (12,9), (13,6), (13,10), (15,7), (15,8), (16,14)]⟩,
  ⟨[1, 1, -1], 0, 0, [(2,1), (6,5), (7,3), (8,3), (9,4), (10,5), (12,7), (12,8), (14,6), (14,10), (15,11), (16,13)]⟩,
  ⟨[1, 1, -1], 1, 0, [(2,1), (6,5), (7,3), (8,3), (9,4), (10,5), (12,7), (12,8), (14,6), (14,10), (15,11), (16,13)]⟩,
  ⟨[1, -1, -1], 0, 0, [(3,1), (6,4), (7,2), (8,2), (10,4), (11,5), (13,7), (13,8), (14,9), (15,6), (15,10), (16,12)]⟩,
  ⟨[1, -1, -1], 1, 0, [(3,1), (6,4), (7,2), (8,2), (10,4), (11,5), (13,7), (13,8), (14,9), (15,6), (15,10), (16,12)]⟩]

/-- `make_matrix` in `sym-QSLR-impl.hpp`: `qslr/qslr-2ch-diag.dat`, `qslr/qslr-2ch-offdiag.dat`. -/
def ham_QSLR_2ch_plain : HamTable where
  variant := .plain
  hops := [
    ⟨.offdiag, 0, 0, [(1,2), (1,3), (1,4), (1,5), (2,6), (2,7), (2,8), (2,9), (2,10), (3,6), (3,7), (3,8), (3,10), (3,11),
    (4,6), (4,7), (4,8), (4,9), (4,10), (5,6), (5,7), (5,8), (5,10), (5,11), (6,12), (6,13), (6,14), (6,15),
    (7,12), (7,13), (7,14), (7,15), (8,12), (8,13), (8,14), (8,15), (9,12), (9,14), (10,12), (10,13), (10,14), (10,15),
    (11,13), (11,15), (12,16), (13,16), (14,16), (15,16)]⟩,
    ⟨.offdiag, 1, 0, [(1,2), (1,3), (1,4), (1,5), (2,6), (2,7), (2,8), (2,9), (2,10), (3,6), (3,7), (3,8), (3,10), (3,11),
    (4,6), (4,7), (4,8), (4,9), (4,10), (5,6), (5,7), (5,8), (5,10), (5,11), (6,12), (6,13), (6,14), (6,15),
    (7,12), (7,13), (7,14), (7,15), (8,12), (8,13), (8,14), (8,15), (9,12), (9,14), (10,12), (10,13), (10,14), (10,15),
    (11,13), (11,15), (12,16), (13,16), (14,16), (15,16)]⟩]
  siteHops := []
  occupations := [
    ⟨.both, 0, [(1,0), (2,1), (3,1), (4,1), (5,1), (6,2), (7,2), (8,2), (9,2), (10,2), (11,2), (12,3), (13,3), (14,3),
    (15,3), (16,4)]⟩,
    ⟨.both, 1, [(1,0), (2,1), (3,1), (4,1), (5,1), (6,2), (7,2), (8,2), (9,2), (10,2), (11,2), (12,3), (13,3), (14,3),
    (15,3), (16,4)]⟩]

/-- Class `SymmetryQSLR` with 2 channel(s). -/
def ham_QSLR_2ch : Ham where
  builtin := ⟨"QSLR", 2, fields_QSLR, tab_QSLR_2ch⟩
  blocks := fblocks_QSLR_2ch
  invarF := none
  guard := .plain
  variants := [ham_QSLR_2ch_plain]

/-- `recalc_irreduc` in `nrg-recalc-QST.hpp`: `qst-spinup+1.dat`, `qst-spinup0.dat`, `qst-spinup-1.dat`, `qst-spindo+1.dat`, `qst-spindo0.dat`, `qst-spindo-1.dat`. -/
def fblocks_QST_3ch : List FBlock := [
  ⟨[1, 1, 1], 0, 0, [(2,1), (8,7), (9,5), (10,6), (11,7), (14,3), (15,4), (17,6), (18,7), (23,8), (23,11), (23,18), (24,12), (24,19),
    (25,13), (26,21), (27,22), (29,10), (29,17), (30,11), (30,18), (31,12), (31,19), (32,13), (34,20), (35,21), (36,22), (39,16),
    (40,19), (41,22), (43,28), (44,26), (44,35), (45,27), (45,36), (46,28), (46,37), (47,38), (49,24), (49,31), (49,40), (50,25),
    (50,32), (51,33), (52,27), (52,36), (52,41), (53,28), (53,37), (54,38), (55,42), (58,43), (58,46), (58,53), (59,47), (59,54),
    (60,48), (61,56), (62,57), (64,63)]⟩,
  ⟨[1, 1, 0], 0, 0, [(3,1), (8,6), (10,5), (11,6), (12,7), (14,2), (15,3), (16,4), (17,5), (18,6), (19,7), (23,10), (23,17), (24,8),
    (24,11), (24,18), (25,12), (25,19), (26,20), (27,21), (28,22), (29,9), (30,10), (30,17), (31,11), (31,18), (32,12), (32,19),
    (33,13), (35,20), (36,21), (37,22), (39,15), (40,18), (41,21), (43,27), (44,34), (45,26), (45,35), (46,27), (46,36), (47,28),
    (47,37), (48,38), (49,23), (49,30), (50,24), (50,31), (50,40), (51,25), (51,32), (52,26), (52,35), (53,27), (53,36), (53,41),
    (54,28), (54,37), (56,42), (58,45), (58,52), (59,43), (59,46), (59,53), (60,47), (60,54), (61,55), (62,56), (63,57), (64,62)]⟩,
  ⟨[1, 1, -1], 0, 0, [(4,1), (8,5), (11,5), (12,6), (13,7), (15,2), (16,3), (18,5), (19,6), (23,9), (24,10), (24,17), (25,8), (25,11),
    (25,18), (27,20), (28,21), (30,9), (31,10), (31,17), (32,11), (32,18), (33,12), (33,19), (36,20), (37,21), (38,22), (39,14),
    (40,17), (41,20), (43,26), (45,34), (46,26), (46,35), (47,27), (47,36), (48,28), (48,37), (49,29), (50,23), (50,30), (51,24),
    (51,31), (51,40), (52,34), (53,26), (53,35), (54,27), (54,36), (54,41), (57,42), (58,44), (59,45), (59,52), (60,43), (60,46),
    (60,53), (62,55), (63,56), (64,61)]⟩,
  ⟨[1, -1, 1], 0, 0, [(5,1), (8,4), (9,2), (10,3), (11,4), (17,3), (18,4), (20,6), (21,7), (23,15), (24,16), (26,8), (26,11), (26,18),
    (27,12), (27,19), (28,13), (29,14), (30,15), (31,16), (34,10), (34,17), (35,11), (35,18), (36,12), (36,19), (37,13), (40,16),
    (41,19), (42,22), (43,25), (44,23), (44,30), (45,24), (45,31), (46,25), (46,32), (47,33), (49,39), (52,24), (52,31), (52,40),
    (53,25), (53,32), (54,33), (55,27), (55,36), (55,41), (56,28), (56,37), (57,38), (58,50), (59,51), (61,43), (61,46), (61,53),
    (62,47), (62,54), (63,48), (64,60)]⟩,
  ⟨[1, -1, 0], 0, 0, [(6,1), (8,3), (10,2), (11,3), (12,4), (17,2), (18,3), (19,4), (20,5), (21,6), (22,7), (23,14), (24,15), (25,16),
    (26,10), (26,17), (27,8), (27,11), (27,18), (28,12), (28,19), (30,14), (31,15), (32,16), (34,9), (35,10), (35,17), (36,11),
    (36,18), (37,12), (37,19), (38,13), (40,15), (41,18), (42,21), (43,24), (44,29), (45,23), (45,30), (46,24), (46,31), (47,25),
    (47,32), (48,33), (50,39), (52,23), (52,30), (53,24), (53,31), (53,40), (54,25), (54,32), (55,26), (55,35), (56,27), (56,36),
    (56,41), (57,28), (57,37), (58,49), (59,50), (60,51), (61,45), (61,52), (62,43), (62,46), (62,53), (63,47), (63,54), (64,59)]⟩,
  ⟨[1, -1, -1], 0, 0, [(7,1), (8,2), (11,2), (12,3), (13,4), (18,2), (19,3), (21,5), (22,6), (24,14), (25,15), (26,9), (27,10), (27,17),
    (28,8), (28,11), (28,18), (31,14), (32,15), (33,16), (35,9), (36,10), (36,17), (37,11), (37,18), (38,12), (38,19), (40,14),
    (41,17), (42,20), (43,23), (45,29), (46,23), (46,30), (47,24), (47,31), (48,25), (48,32), (51,39), (52,29), (53,23), (53,30),
    (54,24), (54,31), (54,40), (55,34), (56,26), (56,35), (57,27), (57,36), (57,41), (59,49), (60,50), (61,44), (62,45), (62,52),
    (63,43), (63,46), (63,53), (64,58)]⟩]

/-- `make_matrix` in `sym-QST-impl.hpp`: `qst/qst-offdiag.dat`, `qst/qst-diag.dat`. -/
def ham_QST_3ch_plain : HamTable where
  variant := .plain
  hops := [
    ⟨.offdiag, 0, 0, [(1,2), (1,3), (1,4), (1,5), (1,6), (1,7), (2,8), (2,9), (2,10), (2,11), (2,14), (2,15), (2,17), (2,18),
    (3,8), (3,10), (3,11), (3,12), (3,14), (3,15), (3,16), (3,17), (3,18), (3,19), (4,8), (4,11), (4,12), (4,13),
    (4,15), (4,16), (4,18), (4,19), (5,8), (5,9), (5,10), (5,11), (5,17), (5,18), (5,20), (5,21), (6,8), (6,10),
    (6,11), (6,12), (6,17), (6,18), (6,19), (6,20), (6,21), (6,22), (7,8), (7,11), (7,12), (7,13), (7,18), (7,19),
    (7,21), (7,22), (8,23), (8,24), (8,25), (8,26), (8,27), (8,28), (9,23), (9,26), (9,29), (9,30), (9,34), (9,35),
    (10,23), (10,24), (10,26), (10,27), (10,29), (10,30), (10,31), (10,34), (10,35), (10,36), (11,23), (11,24), (11,25), (11,26),
    (11,27), (11,28), (11,30), (11,31), (11,32), (11,35), (11,36), (11,37), (12,24), (12,25), (12,27), (12,28), (12,31), (12,32),
    (12,33), (12,36), (12,37), (12,38), (13,25), (13,28), (13,32), (13,33), (13,37), (13,38), (14,23), (14,24), (14,29), (14,30),
    (14,31), (14,39), (14,40), (15,23), (15,24), (15,25), (15,30), (15,31), (15,32), (15,39), (15,40), (16,24), (16,25), (16,31),
    (16,32), (16,33), (16,39), (16,40), (17,23), (17,24), (17,26), (17,27), (17,29), (17,30), (17,31), (17,34), (17,35), (17,36),
    (17,40), (17,41), (18,23), (18,24), (18,25), (18,26), (18,27), (18,28), (18,30), (18,31), (18,32), (18,35), (18,36), (18,37),
    (18,40), (18,41), (19,24), (19,25), (19,27), (19,28), (19,31), (19,32), (19,33), (19,36), (19,37), (19,38), (19,40), (19,41),
    (20,26), (20,27), (20,34), (20,35), (20,36), (20,41), (20,42), (21,26), (21,27), (21,28), (21,35), (21,36), (21,37), (21,41),
    (21,42), (22,27), (22,28), (22,36), (22,37), (22,38), (22,41), (22,42), (23,43), (23,44), (23,45), (23,46), (23,49), (23,50),
    (23,52), (23,53), (24,43), (24,45), (24,46), (24,47), (24,49), (24,50), (24,51), (24,52), (24,53), (24,54), (25,43), (25,46),
    (25,47), (25,48), (25,50), (25,51), (25,53), (25,54), (26,43), (26,44), (26,45), (26,46), (26,52), (26,53), (26,55), (26,56),
    (27,43), (27,45), (27,46), (27,47), (27,52), (27,53), (27,54), (27,55), (27,56), (27,57), (28,43), (28,46), (28,47), (28,48),
    (28,53), (28,54), (28,56), (28,57), (29,44), (29,45), (29,49), (29,52), (30,44), (30,45), (30,46), (30,49), (30,50), (30,52),
    (30,53), (31,45), (31,46), (31,47), (31,49), (31,50), (31,51), (31,52), (31,53), (31,54), (32,46), (32,47), (32,48), (32,50),
    (32,51), (32,53), (32,54), (33,47), (33,48), (33,51), (33,54), (34,44), (34,45), (34,52), (34,55), (35,44), (35,45), (35,46),
    (35,52), (35,53), (35,55), (35,56), (36,45), (36,46), (36,47), (36,52), (36,53), (36,54), (36,55), (36,56), (36,57), (37,46),
    (37,47), (37,48), (37,53), (37,54), (37,56), (37,57), (38,47), (38,48), (38,54), (38,57), (39,49), (39,50), (39,51), (40,49),
    (40,50), (40,51), (40,52), (40,53), (40,54), (41,52), (41,53), (41,54), (41,55), (41,56), (41,57), (42,55), (42,56), (42,57),
    (43,58), (43,59), (43,60), (43,61), (43,62), (43,63), (44,58), (44,61), (45,58), (45,59), (45,61), (45,62), (46,58), (46,59),
    (46,60), (46,61), (46,62), (46,63), (47,59), (47,60), (47,62), (47,63), (48,60), (48,63), (49,58), (49,59), (50,58), (50,59),
    (50,60), (51,59), (51,60), (52,58), (52,59), (52,61), (52,62), (53,58), (53,59), (53,60), (53,61), (53,62), (53,63), (54,59),
    (54,60), (54,62), (54,63), (55,61), (55,62), (56,61), (56,62), (56,63), (57,62), (57,63), (58,64), (59,64), (60,64), (61,64),
    (62,64), (63,64)]⟩]
  siteHops := []
  occupations := [
    ⟨.both, 0, [(1,0), (2,2), (3,2), (4,2), (5,2), (6,2), (7,2), (8,4), (9,4), (10,4), (11,4), (12,4), (13,4), (14,4),
    (15,4), (16,4), (17,4), (18,4), (19,4), (20,4), (21,4), (22,4), (23,6), (24,6), (25,6), (26,6), (27,6), (28,6),
    (29,6), (30,6), (31,6), (32,6), (33,6), (34,6), (35,6), (36,6), (37,6), (38,6), (39,6), (40,6), (41,6), (42,6),
    (43,8), (44,8), (45,8), (46,8), (47,8), (48,8), (49,8), (50,8), (51,8), (52,8), (53,8), (54,8), (55,8), (56,8),
    (57,8), (58,10), (59,10), (60,10), (61,10), (62,10), (63,10), (64,12)]⟩]

/-- Class `SymmetryQST` with 3 channel(s). -/
def ham_QST_3ch : Ham where
  builtin := ⟨"QST", 3, fields_QST, tab_QST_3ch⟩
  blocks := fblocks_QST_3ch
  invarF := some [1, 2, 1]
  guard := .qst
  variants := [ham_QST_3ch_plain]

/-- `recalc_irreduc` in `nrg-recalc-QSTZ.hpp`: `qstz-spinup+1.dat`, `qstz-spinup0.dat`, `qstz-spinup-1.dat`, `qstz-spindo+1.dat`, `qstz-spindo0.dat`, `qstz-spindo-1.dat`. -/
def fblocks_QSTZ_3ch : List FBlock := [
  ⟨[1, 1, 1], 0, 0, [(6,1), (10,3), (11,3), (12,5), (13,7), (17,2), (18,3), (20,4), (21,5), (25,8), (27,8), (29,9), (29,15), (30,16),
    (31,9), (31,15), (32,16), (33,10), (33,11), (33,18), (34,19), (35,11), (35,18), (36,19), (37,12), (37,21), (38,22), (39,14),
    (40,15), (41,16), (44,24), (45,26), (46,26), (46,28), (47,30), (47,32), (48,34), (48,36), (49,23), (50,24), (52,25), (52,27),
    (53,26), (53,28), (55,29), (55,31), (55,40), (56,30), (56,32), (56,41), (57,42), (58,43), (60,44), (60,50), (61,51), (62,45),
    (62,46), (62,53), (63,54), (64,59)]⟩,
  ⟨[1, 1, 0], 0, 0, [(4,1), (9,3), (10,5), (11,5), (12,7), (14,2), (15,3), (20,6), (21,7), (23,8), (25,9), (25,15), (26,16), (27,9),
    (27,15), (28,16), (29,10), (29,11), (31,18), (32,19), (33,12), (33,21), (34,22), (35,12), (35,21), (36,22), (37,13), (39,17),
    (40,18), (41,19), (43,24), (44,26), (44,28), (45,30), (46,30), (47,34), (47,36), (48,38), (49,25), (49,27), (50,26), (50,28),
    (52,31), (52,40), (53,32), (53,41), (54,42), (55,33), (55,35), (56,34), (56,36), (58,44), (58,50), (59,51), (60,45), (60,46),
    (62,47), (62,56), (63,57), (64,61)]⟩,
  ⟨[1, 1, -1], 0, 0, [(2,1), (8,3), (9,5), (10,7), (11,7), (14,4), (15,5), (17,6), (18,7), (23,9), (23,15), (24,16), (25,10), (25,11),
    (25,18), (26,19), (27,11), (27,18), (28,19), (29,12), (29,21), (30,22), (31,12), (31,21), (32,22), (33,13), (35,13), (39,20),
    (40,21), (41,22), (43,26), (43,28), (44,30), (44,32), (45,34), (46,34), (46,36), (47,38), (49,29), (49,31), (49,40), (50,30),
    (50,32), (50,41), (51,42), (52,33), (52,35), (53,34), (53,36), (55,37), (56,38), (58,45), (58,46), (58,53), (59,54), (60,47),
    (60,56), (61,57), (62,48), (64,63)]⟩,
  ⟨[1, -1, 1], 0, 0, [(7,1), (10,2), (11,2), (12,4), (13,6), (18,2), (19,3), (21,4), (22,5), (26,8), (28,8), (29,14), (30,9), (30,15),
    (31,14), (32,9), (32,15), (33,17), (34,10), (34,11), (34,18), (35,17), (36,11), (36,18), (37,20), (38,12), (38,21), (40,14),
    (41,15), (42,16), (44,23), (45,25), (46,25), (46,27), (47,29), (47,31), (48,33), (48,35), (50,23), (51,24), (53,25), (53,27),
    (54,26), (54,28), (55,39), (56,29), (56,31), (56,40), (57,30), (57,32), (57,41), (59,43), (60,49), (61,44), (61,50), (62,52),
    (63,45), (63,46), (63,53), (64,58)]⟩,
  ⟨[1, -1, 0], 0, 0, [(5,1), (9,2), (10,4), (11,4), (12,6), (15,2), (16,3), (21,6), (22,7), (24,8), (25,14), (26,9), (26,15), (27,14),
    (28,9), (28,15), (30,10), (30,11), (31,17), (32,18), (33,20), (34,12), (34,21), (35,20), (36,12), (36,21), (38,13), (40,17),
    (41,18), (42,19), (43,23), (44,25), (44,27), (45,29), (46,29), (47,33), (47,35), (48,37), (50,25), (50,27), (51,26), (51,28),
    (52,39), (53,31), (53,40), (54,32), (54,41), (56,33), (56,35), (57,34), (57,36), (58,49), (59,44), (59,50), (61,45), (61,46),
    (62,55), (63,47), (63,56), (64,60)]⟩,
  ⟨[1, -1, -1], 0, 0, [(3,1), (8,2), (9,4), (10,6), (11,6), (15,4), (16,5), (18,6), (19,7), (23,14), (24,9), (24,15), (25,17), (26,10),
    (26,11), (26,18), (27,17), (28,11), (28,18), (29,20), (30,12), (30,21), (31,20), (32,12), (32,21), (34,13), (36,13), (40,20),
    (41,21), (42,22), (43,25), (43,27), (44,29), (44,31), (45,33), (46,33), (46,35), (47,37), (49,39), (50,29), (50,31), (50,40),
    (51,30), (51,32), (51,41), (53,33), (53,35), (54,34), (54,36), (56,37), (57,38), (58,52), (59,45), (59,46), (59,53), (60,55),
    (61,47), (61,56), (63,48), (64,62)]⟩]

/-- `make_matrix` in `sym-QSTZ-impl.hpp`: `qstz/qstz-offdiag.dat`, `qstz/qstz-diag.dat`. -/
def ham_QSTZ_3ch_plain : HamTable where
  variant := .plain
  hops := [
    ⟨.offdiag, 0, 0, [(1,2), (1,3), (1,4), (1,5), (1,6), (1,7), (2,8), (2,9), (2,10), (2,11), (2,14), (2,15), (2,17), (2,18),
    (3,8), (3,9), (3,10), (3,11), (3,15), (3,16), (3,18), (3,19), (4,9), (4,10), (4,11), (4,12), (4,14), (4,15),
    (4,20), (4,21), (5,9), (5,10), (5,11), (5,12), (5,15), (5,16), (5,21), (5,22), (6,10), (6,11), (6,12), (6,13),
    (6,17), (6,18), (6,20), (6,21), (7,10), (7,11), (7,12), (7,13), (7,18), (7,19), (7,21), (7,22), (8,23), (8,24),
    (8,25), (8,26), (8,27), (8,28), (9,23), (9,24), (9,25), (9,26), (9,27), (9,28), (9,29), (9,30), (9,31), (9,32),
    (10,25), (10,26), (10,29), (10,30), (10,33), (10,34), (11,25), (11,26), (11,27), (11,28), (11,29), (11,30), (11,33), (11,34),
    (11,35), (11,36), (12,29), (12,30), (12,31), (12,32), (12,33), (12,34), (12,35), (12,36), (12,37), (12,38), (13,33), (13,34),
    (13,35), (13,36), (13,37), (13,38), (14,23), (14,25), (14,27), (14,29), (14,31), (14,39), (14,40), (15,23), (15,24), (15,25),
    (15,26), (15,27), (15,28), (15,29), (15,30), (15,31), (15,32), (15,40), (15,41), (16,24), (16,26), (16,28), (16,30), (16,32),
    (16,41), (16,42), (17,25), (17,27), (17,31), (17,33), (17,35), (17,39), (17,40), (18,25), (18,26), (18,27), (18,28), (18,31),
    (18,32), (18,33), (18,34), (18,35), (18,36), (18,40), (18,41), (19,26), (19,28), (19,32), (19,34), (19,36), (19,41), (19,42),
    (20,29), (20,31), (20,33), (20,35), (20,37), (20,39), (20,40), (21,29), (21,30), (21,31), (21,32), (21,33), (21,34), (21,35),
    (21,36), (21,37), (21,38), (21,40), (21,41), (22,30), (22,32), (22,34), (22,36), (22,38), (22,41), (22,42), (23,43), (23,44),
    (23,49), (23,50), (24,43), (24,44), (24,50), (24,51), (25,43), (25,44), (25,45), (25,46), (25,49), (25,50), (25,52), (25,53),
    (26,43), (26,44), (26,45), (26,46), (26,50), (26,51), (26,53), (26,54), (27,43), (27,44), (27,46), (27,49), (27,50), (27,52),
    (27,53), (28,43), (28,44), (28,46), (28,50), (28,51), (28,53), (28,54), (29,44), (29,45), (29,46), (29,47), (29,49), (29,50),
    (29,55), (29,56), (30,44), (30,45), (30,46), (30,47), (30,50), (30,51), (30,56), (30,57), (31,44), (31,47), (31,49), (31,50),
    (31,52), (31,53), (31,55), (31,56), (32,44), (32,47), (32,50), (32,51), (32,53), (32,54), (32,56), (32,57), (33,45), (33,46),
    (33,47), (33,48), (33,52), (33,53), (33,55), (33,56), (34,45), (34,46), (34,47), (34,48), (34,53), (34,54), (34,56), (34,57),
    (35,46), (35,47), (35,48), (35,52), (35,53), (35,55), (35,56), (36,46), (36,47), (36,48), (36,53), (36,54), (36,56), (36,57),
    (37,47), (37,48), (37,55), (37,56), (38,47), (38,48), (38,56), (38,57), (39,49), (39,52), (39,55), (40,49), (40,50), (40,52),
    (40,53), (40,55), (40,56), (41,50), (41,51), (41,53), (41,54), (41,56), (41,57), (42,51), (42,54), (42,57), (43,58), (43,59),
    (44,58), (44,59), (44,60), (44,61), (45,58), (45,59), (45,60), (45,61), (45,62), (45,63), (46,58), (46,59), (46,60), (46,61),
    (46,62), (46,63), (47,60), (47,61), (47,62), (47,63), (48,62), (48,63), (49,58), (49,60), (50,58), (50,59), (50,60), (50,61),
    (51,59), (51,61), (52,58), (52,62), (53,58), (53,59), (53,62), (53,63), (54,59), (54,63), (55,60), (55,62), (56,60), (56,61),
    (56,62), (56,63), (57,61), (57,63), (58,64), (59,64), (60,64), (61,64), (62,64), (63,64)]⟩]
  siteHops := []
  occupations := [
    ⟨.both, 0, [(1,0), (2,2), (3,2), (4,2), (5,2), (6,2), (7,2), (8,4), (9,4), (10,4), (11,4), (12,4), (13,4), (14,4),
    (15,4), (16,4), (17,4), (18,4), (19,4), (20,4), (21,4), (22,4), (23,6), (24,6), (25,6), (26,6), (27,6), (28,6),
    (29,6), (30,6), (31,6), (32,6), (33,6), (34,6), (35,6), (36,6), (37,6), (38,6), (39,6), (40,6), (41,6), (42,6),
    (43,8), (44,8), (45,8), (46,8), (47,8), (48,8), (49,8), (50,8), (51,8), (52,8), (53,8), (54,8), (55,8), (56,8),
    (57,8), (58,10), (59,10), (60,10), (61,10), (62,10), (63,10), (64,12)]⟩]

/-- Class `SymmetryQSTZ` with 3 channel(s). -/
def ham_QSTZ_3ch : Ham where
  builtin := ⟨"QSTZ", 3, fields_QSTZ, tab_QSTZ_3ch⟩
  blocks := fblocks_QSTZ_3ch
  invarF := none
  guard := .plain
  variants := [ham_QSTZ_3ch_plain]

/-- `recalc_irreduc` in `nrg-recalc-QSZ.hpp`: `qsz-1ch-spinupa.dat`, `qsz-1ch-spindowna.dat`. -/
def fblocks_QSZ_1ch : List FBlock := [
  ⟨[1, 1], 0, 0, [(3,1), (4,2)]⟩,
  ⟨[1, -1], 0, 0, [(2,1), (4,3)]⟩]

/-- `make_matrix_nonpolarized` in `sym-QSZ-impl.hpp`: `qsz/qsz-1ch-offdiag.dat`, `qsz/qsz-1ch-diag.dat`. -/
def ham_QSZ_1ch_nonpolarized : HamTable where
  variant := .nonpolarized
  hops := [
    ⟨.offdiag, 0, 0, [(1,2), (1,3), (2,4), (3,4)]⟩]
  siteHops := []
  occupations := [
    ⟨.both, 0, [(1,0), (2,2), (3,2), (4,4)]⟩]

/-- `make_matrix_polarized` in `sym-QSZ-impl.hpp`: `qsz/qsz-1ch-offdiag-UP.dat`, `qsz/qsz-1ch-offdiag-DOWN.dat`, `qsz/qsz-1ch-diag-UP.dat`, `qsz/qsz-1ch-diag-DOWN.dat`. -/
def ham_QSZ_1ch_polarized : HamTable where
  variant := .polarized
  hops := [
    ⟨.up, 0, 0, [(1,3), (2,4)]⟩,
    ⟨.down, 0, 0, [(1,2), (3,4)]⟩]
  siteHops := []
  occupations := [
    ⟨.up, 0, [(1,0), (2,0), (3,2), (4,2)]⟩,
    ⟨.down, 0, [(1,0), (2,2), (3,0), (4,2)]⟩]

/-- Class `SymmetryQSZ` with 1 channel(s). -/
def ham_QSZ_1ch : Ham where
  builtin := ⟨"QSZ", 1, fields_QSZ, tab_QSZ_1ch⟩
  blocks := fblocks_QSZ_1ch
  invarF := none
  guard := .plain
  variants := [ham_QSZ_1ch_nonpolarized, ham_QSZ_1ch_polarized]

/-- `recalc_irreduc` in `nrg-recalc-QSZ.hpp`: `qsz-2ch-spinupa.dat`, `qsz-2ch-spinupb.dat`, `qsz-2ch-spindowna.dat`, `qsz-2ch-spindownb.dat`. -/
def fblocks_QSZ_2ch : List FBlock := [
  ⟨[1, 1], 0, 0, [(5,1), (9,2), (10,3), (11,4), (13,6), (14,7), (15,8), (16,12)]⟩,
  ⟨[1, 1], 1, 0, [(4,1), (7,2), (8,3), (11,5), (12,6), (14,9), (15,10), (16,13)]⟩,
  ⟨[1, -1], 0, 0, [(3,1), (6,2), (8,4), (10,5), (12,7), (13,9), (15,11), (16,14)]⟩,
  ⟨[1, -1], 1, 0, [(2,1), (6,3), (7,4), (9,5), (12,8), (13,10), (14,11), (16,15)]⟩]

/-- `make_matrix_nonpolarized` in `sym-QSZ-impl.hpp`: `qsz/qsz-2ch-offdiag.dat`, `qsz/qsz-2ch-diag.dat`, `qsz/qsz-2ch-offdiag-mix.dat`, `qsz/qsz-2ch-runghop.dat`. -/
def ham_QSZ_2ch_nonpolarized : HamTable where
  variant := .nonpolarized
  hops := [
    ⟨.offdiag, 0, 0, [(1,3), (1,5), (2,6), (2,9), (3,10), (4,8), (4,11), (5,10), (6,13), (7,12), (7,14), (8,15), (9,13), (11,15),
    (12,16), (14,16)]⟩,
    ⟨.offdiag, 1, 0, [(1,2), (1,4), (2,7), (3,6), (3,8), (4,7), (5,9), (5,11), (6,12), (8,12), (9,14), (10,13), (10,15), (11,14),
    (13,16), (15,16)]⟩,
    ⟨.mix, 0, 0, [(1,2), (1,4), (2,7), (3,6), (3,8), (4,7), (5,9), (5,11), (6,12), (8,12), (9,14), (10,13), (10,15), (11,14),
    (13,16), (15,16)]⟩,
    ⟨.mix, 1, 0, [(1,3), (1,5), (2,6), (2,9), (3,10), (4,8), (4,11), (5,10), (6,13), (7,12), (7,14), (8,15), (9,13), (11,15),
    (12,16), (14,16)]⟩]
  siteHops := [(2,3), (3,2), (4,5), (5,4), (7,8), (7,9), (8,7), (8,10), (9,7), (9,10), (10,8), (10,9), (12,13), (13,12),
    (14,15), (15,14)]
  occupations := [
    ⟨.both, 0, [(1,0), (2,0), (3,2), (4,0), (5,2), (6,2), (7,0), (8,2), (9,2), (10,4), (11,2), (12,2), (13,4), (14,2),
    (15,4), (16,4)]⟩,
    ⟨.both, 1, [(1,0), (2,2), (3,0), (4,2), (5,0), (6,2), (7,4), (8,2), (9,2), (10,0), (11,2), (12,4), (13,2), (14,4),
    (15,2), (16,4)]⟩]

/-- `make_matrix_polarized` in `sym-QSZ-impl.hpp`: `qsz/qsz-2ch-offdiag-UP.dat`, `qsz/qsz-2ch-offdiag-DOWN.dat`, `qsz/qsz-2ch-diag-UP.dat`, `qsz/qsz-2ch-diag-DOWN.dat`. -/
def ham_QSZ_2ch_polarized : HamTable where
  variant := .polarized
  hops := [
    ⟨.up, 0, 0, [(1,5), (2,9), (3,10), (4,11), (6,13), (7,14), (8,15), (12,16)]⟩,
    ⟨.up, 1, 0, [(1,4), (2,7), (3,8), (5,11), (6,12), (9,14), (10,15), (13,16)]⟩,
    ⟨.down, 0, 0, [(1,3), (2,6), (4,8), (5,10), (7,12), (9,13), (11,15), (14,16)]⟩,
    ⟨.down, 1, 0, [(1,2), (3,6), (4,7), (5,9), (8,12), (10,13), (11,14), (15,16)]⟩]
  siteHops := []
  occupations := [
    ⟨.up, 0, [(1,0), (2,0), (3,0), (4,0), (5,2), (6,0), (7,0), (8,0), (9,2), (10,2), (11,2), (12,0), (13,2), (14,2),
    (15,2), (16,2)]⟩,
    ⟨.up, 1, [(1,0), (2,0), (3,0), (4,2), (5,0), (6,0), (7,2), (8,2), (9,0), (10,0), (11,2), (12,2), (13,0), (14,2),
    (15,2), (16,2)]⟩,
    ⟨.down, 0, [(1,0), (2,0), (3,2), (4,0), (5,0), (6,2), (7,0), (8,2), (9,0), (10,2), (11,0), (12,2), (13,2), (14,0),
    (15,2), (16,2)]⟩,
    ⟨.down, 1, [(1,0), (2,2), (3,0), (4,0), (5,0), (6,2), (7,2), (8,0), (9,2), (10,0), (11,0), (12,2), (13,2), (14,2),
    (15,0), (16,2)]⟩]

/-- Class `SymmetryQSZ` with 2 channel(s). -/
def ham_QSZ_2ch : Ham where
  builtin := ⟨"QSZ", 2, fields_QSZ, tab_QSZ_2ch⟩
  blocks := fblocks_QSZ_2ch
  invarF := none
  guard := .plain
  variants := [ham_QSZ_2ch_nonpolarized, ham_QSZ_2ch_polarized]

/-- `recalc_irreduc` in `nrg-recalc-QSZ.hpp`: `qsz-3ch-spinupa.dat`, `qsz-3ch-spinupb.dat`, `qsz-3ch-spinupc.dat`, `qsz-3ch-spindowna.dat`, `qsz-3ch-spindownb.dat`, `qsz-3ch-spindownc.dat`. -/
def fblocks_QSZ_3ch : List FBlock := [
  ⟨[1, 1], 0, 0, [(7,1), (17,2), (18,3), (19,4), (21,5), (22,6), (30,8), (31,9), (32,10), (36,11), (37,12), (38,13), (39,14), (40,15),
    (41,16), (42,20), (45,23), (49,24), (50,25), (51,26), (52,27), (53,28), (54,29), (55,33), (56,34), (57,35), (59,43), (60,44),
    (61,46), (62,47), (63,48), (64,58)]⟩,
  ⟨[1, 1], 1, 0, [(6,1), (13,2), (14,3), (16,4), (20,5), (22,7), (25,8), (28,9), (29,10), (33,11), (34,12), (35,15), (38,17), (39,18),
    (41,19), (42,21), (44,23), (46,24), (47,26), (48,27), (50,30), (53,31), (54,32), (55,36), (56,37), (57,40), (58,43), (60,45),
    (61,49), (62,51), (63,52), (64,59)]⟩,
  ⟨[1, 1], 2, 0, [(5,1), (11,2), (12,3), (15,4), (20,6), (21,7), (24,8), (26,9), (27,10), (33,13), (34,14), (35,16), (36,17), (37,18),
    (40,19), (42,22), (43,23), (46,25), (47,28), (48,29), (49,30), (51,31), (52,32), (55,38), (56,39), (57,41), (58,44), (59,45),
    (61,50), (62,53), (63,54), (64,60)]⟩,
  ⟨[1, -1], 0, 0, [(4,1), (9,2), (10,3), (15,5), (16,6), (19,7), (23,8), (26,11), (27,12), (28,13), (29,14), (31,17), (32,18), (35,20),
    (40,21), (41,22), (43,24), (44,25), (45,30), (47,33), (48,34), (51,36), (52,37), (53,38), (54,39), (57,42), (58,46), (59,49),
    (60,50), (62,55), (63,56), (64,61)]⟩,
  ⟨[1, -1], 1, 0, [(3,1), (8,2), (10,4), (12,5), (14,6), (18,7), (23,9), (24,11), (25,13), (27,15), (29,16), (30,17), (32,19), (34,20),
    (37,21), (39,22), (43,26), (44,28), (45,31), (46,33), (48,35), (49,36), (50,38), (52,40), (54,41), (56,42), (58,47), (59,51),
    (60,53), (61,55), (63,57), (64,62)]⟩,
  ⟨[1, -1], 2, 0, [(2,1), (8,3), (9,4), (11,5), (13,6), (17,7), (23,10), (24,12), (25,14), (26,15), (28,16), (30,18), (31,19), (33,20),
    (36,21), (38,22), (43,27), (44,29), (45,32), (46,34), (47,35), (49,37), (50,39), (51,40), (53,41), (55,42), (58,48), (59,52),
    (60,54), (61,56), (62,57), (64,63)]⟩]

/-- `make_matrix_nonpolarized` in `sym-QSZ-impl.hpp`: `qsz/qsz-3ch-offdiag.dat`, `qsz/qsz-3ch-diag.dat`. -/
def ham_QSZ_3ch_nonpolarized : HamTable where
  variant := .nonpolarized
  hops := [
    ⟨.offdiag, 0, 0, [(1,4), (1,7), (2,9), (2,17), (3,10), (3,18), (4,19), (5,15), (5,21), (6,16), (6,22), (7,19), (8,23), (8,30),
    (9,31), (10,32), (11,26), (11,36), (12,27), (12,37), (13,28), (13,38), (14,29), (14,39), (15,40), (16,41), (17,31), (18,32),
    (20,35), (20,42), (21,40), (22,41), (23,45), (24,43), (24,49), (25,44), (25,50), (26,51), (27,52), (28,53), (29,54), (30,45),
    (33,47), (33,55), (34,48), (34,56), (35,57), (36,51), (37,52), (38,53), (39,54), (42,57), (43,59), (44,60), (46,58), (46,61),
    (47,62), (48,63), (49,59), (50,60), (55,62), (56,63), (58,64), (61,64)]⟩,
    ⟨.offdiag, 1, 0, [(1,3), (1,6), (2,8), (2,13), (3,14), (4,10), (4,16), (5,12), (5,20), (6,14), (7,18), (7,22), (8,25), (9,23),
    (9,28), (10,29), (11,24), (11,33), (12,34), (13,25), (15,27), (15,35), (16,29), (17,30), (17,38), (18,39), (19,32), (19,41),
    (20,34), (21,37), (21,42), (22,39), (23,44), (24,46), (26,43), (26,47), (27,48), (28,44), (30,50), (31,45), (31,53), (32,54),
    (33,46), (35,48), (36,49), (36,55), (37,56), (38,50), (40,52), (40,57), (41,54), (42,56), (43,58), (45,60), (47,58), (49,61),
    (51,59), (51,62), (52,63), (53,60), (55,61), (57,63), (59,64), (62,64)]⟩,
    ⟨.offdiag, 2, 0, [(1,2), (1,5), (2,11), (3,8), (3,12), (4,9), (4,15), (5,11), (6,13), (6,20), (7,17), (7,21), (8,24), (9,26),
    (10,23), (10,27), (12,24), (13,33), (14,25), (14,34), (15,26), (16,28), (16,35), (17,36), (18,30), (18,37), (19,31), (19,40),
    (20,33), (21,36), (22,38), (22,42), (23,43), (25,46), (27,43), (28,47), (29,44), (29,48), (30,49), (31,51), (32,45), (32,52),
    (34,46), (35,47), (37,49), (38,55), (39,50), (39,56), (40,51), (41,53), (41,57), (42,55), (44,58), (45,59), (48,58), (50,61),
    (52,59), (53,62), (54,60), (54,63), (56,61), (57,62), (60,64), (63,64)]⟩]
  siteHops := []
  occupations := [
    ⟨.both, 0, [(1,0), (2,0), (3,0), (4,2), (5,0), (6,0), (7,2), (8,0), (9,2), (10,2), (11,0), (12,0), (13,0), (14,0),
    (15,2), (16,2), (17,2), (18,2), (19,4), (20,0), (21,2), (22,2), (23,2), (24,0), (25,0), (26,2), (27,2), (28,2),
    (29,2), (30,2), (31,4), (32,4), (33,0), (34,0), (35,2), (36,2), (37,2), (38,2), (39,2), (40,4), (41,4), (42,2),
    (43,2), (44,2), (45,4), (46,0), (47,2), (48,2), (49,2), (50,2), (51,4), (52,4), (53,4), (54,4), (55,2), (56,2),
    (57,4), (58,2), (59,4), (60,4), (61,2), (62,4), (63,4), (64,4)]⟩,
    ⟨.both, 1, [(1,0), (2,0), (3,2), (4,0), (5,0), (6,2), (7,0), (8,2), (9,0), (10,2), (11,0), (12,2), (13,2), (14,4),
    (15,0), (16,2), (17,0), (18,2), (19,0), (20,2), (21,0), (22,2), (23,2), (24,2), (25,4), (26,0), (27,2), (28,2),
    (29,4), (30,2), (31,0), (32,2), (33,2), (34,4), (35,2), (36,0), (37,2), (38,2), (39,4), (40,0), (41,2), (42,2),
    (43,2), (44,4), (45,2), (46,4), (47,2), (48,4), (49,2), (50,4), (51,0), (52,2), (53,2), (54,4), (55,2), (56,4),
    (57,2), (58,4), (59,2), (60,4), (61,4), (62,2), (63,4), (64,4)]⟩,
    ⟨.both, 2, [(1,0), (2,2), (3,0), (4,0), (5,2), (6,0), (7,0), (8,2), (9,2), (10,0), (11,4), (12,2), (13,2), (14,0),
    (15,2), (16,0), (17,2), (18,0), (19,0), (20,2), (21,2), (22,0), (23,2), (24,4), (25,2), (26,4), (27,2), (28,2),
    (29,0), (30,2), (31,2), (32,0), (33,4), (34,2), (35,2), (36,4), (37,2), (38,2), (39,0), (40,2), (41,0), (42,2),
    (43,4), (44,2), (45,2), (46,4), (47,4), (48,2), (49,4), (50,2), (51,4), (52,2), (53,2), (54,0), (55,4), (56,2),
    (57,2), (58,4), (59,4), (60,2), (61,4), (62,4), (63,2), (64,4)]⟩]

/-- `make_matrix_polarized` in `sym-QSZ-impl.hpp`: `qsz/qsz-3ch-offdiag-UP.dat`, `qsz/qsz-3ch-offdiag-DOWN.dat`, `qsz/qsz-3ch-diag-UP.dat`, `qsz/qsz-3ch-diag-DOWN.dat`. -/
def ham_QSZ_3ch_polarized : HamTable where
  variant := .polarized
  hops := [
    ⟨.up, 0, 0, [(1,7), (2,17), (3,18), (4,19), (5,21), (6,22), (8,30), (9,31), (10,32), (11,36), (12,37), (13,38), (14,39), (15,40),
    (16,41), (20,42), (23,45), (24,49), (25,50), (26,51), (27,52), (28,53), (29,54), (33,55), (34,56), (35,57), (43,59), (44,60),
    (46,61), (47,62), (48,63), (58,64)]⟩,
    ⟨.up, 1, 0, [(1,6), (2,13), (3,14), (4,16), (5,20), (7,22), (8,25), (9,28), (10,29), (11,33), (12,34), (15,35), (17,38), (18,39),
    (19,41), (21,42), (23,44), (24,46), (26,47), (27,48), (30,50), (31,53), (32,54), (36,55), (37,56), (40,57), (43,58), (45,60),
    (49,61), (51,62), (52,63), (59,64)]⟩,
    ⟨.up, 2, 0, [(1,5), (2,11), (3,12), (4,15), (6,20), (7,21), (8,24), (9,26), (10,27), (13,33), (14,34), (16,35), (17,36), (18,37),
    (19,40), (22,42), (23,43), (25,46), (28,47), (29,48), (30,49), (31,51), (32,52), (38,55), (39,56), (41,57), (44,58), (45,59),
    (50,61), (53,62), (54,63), (60,64)]⟩,
    ⟨.down, 0, 0, [(1,4), (2,9), (3,10), (5,15), (6,16), (7,19), (8,23), (11,26), (12,27), (13,28), (14,29), (17,31), (18,32), (20,35),
    (21,40), (22,41), (24,43), (25,44), (30,45), (33,47), (34,48), (36,51), (37,52), (38,53), (39,54), (42,57), (46,58), (49,59),
    (50,60), (55,62), (56,63), (61,64)]⟩,
    ⟨.down, 1, 0, [(1,3), (2,8), (4,10), (5,12), (6,14), (7,18), (9,23), (11,24), (13,25), (15,27), (16,29), (17,30), (19,32), (20,34),
    (21,37), (22,39), (26,43), (28,44), (31,45), (33,46), (35,48), (36,49), (38,50), (40,52), (41,54), (42,56), (47,58), (51,59),
    (53,60), (55,61), (57,63), (62,64)]⟩,
    ⟨.down, 2, 0, [(1,2), (3,8), (4,9), (5,11), (6,13), (7,17), (10,23), (12,24), (14,25), (15,26), (16,28), (18,30), (19,31), (20,33),
    (21,36), (22,38), (27,43), (29,44), (32,45), (34,46), (35,47), (37,49), (39,50), (40,51), (41,53), (42,55), (48,58), (52,59),
    (54,60), (56,61), (57,62), (63,64)]⟩]
  siteHops := []
  occupations := [
    ⟨.up, 0, [(1,0), (2,0), (3,0), (4,0), (5,0), (6,0), (7,2), (8,0), (9,0), (10,0), (11,0), (12,0), (13,0), (14,0),
    (15,0), (16,0), (17,2), (18,2), (19,2), (20,0), (21,2), (22,2), (23,0), (24,0), (25,0), (26,0), (27,0), (28,0),
    (29,0), (30,2), (31,2), (32,2), (33,0), (34,0), (35,0), (36,2), (37,2), (38,2), (39,2), (40,2), (41,2), (42,2),
    (43,0), (44,0), (45,2), (46,0), (47,0), (48,0), (49,2), (50,2), (51,2), (52,2), (53,2), (54,2), (55,2), (56,2),
    (57,2), (58,0), (59,2), (60,2), (61,2), (62,2), (63,2), (64,2)]⟩,
    ⟨.up, 1, [(1,0), (2,0), (3,0), (4,0), (5,0), (6,2), (7,0), (8,0), (9,0), (10,0), (11,0), (12,0), (13,2), (14,2),
    (15,0), (16,2), (17,0), (18,0), (19,0), (20,2), (21,0), (22,2), (23,0), (24,0), (25,2), (26,0), (27,0), (28,2),
    (29,2), (30,0), (31,0), (32,0), (33,2), (34,2), (35,2), (36,0), (37,0), (38,2), (39,2), (40,0), (41,2), (42,2),
    (43,0), (44,2), (45,0), (46,2), (47,2), (48,2), (49,0), (50,2), (51,0), (52,0), (53,2), (54,2), (55,2), (56,2),
    (57,2), (58,2), (59,0), (60,2), (61,2), (62,2), (63,2), (64,2)]⟩,
    ⟨.up, 2, [(1,0), (2,0), (3,0), (4,0), (5,2), (6,0), (7,0), (8,0), (9,0), (10,0), (11,2), (12,2), (13,0), (14,0),
    (15,2), (16,0), (17,0), (18,0), (19,0), (20,2), (21,2), (22,0), (23,0), (24,2), (25,0), (26,2), (27,2), (28,0),
    (29,0), (30,0), (31,0), (32,0), (33,2), (34,2), (35,2), (36,2), (37,2), (38,0), (39,0), (40,2), (41,0), (42,2),
    (43,2), (44,0), (45,0), (46,2), (47,2), (48,2), (49,2), (50,0), (51,2), (52,2), (53,0), (54,0), (55,2), (56,2),
    (57,2), (58,2), (59,2), (60,0), (61,2), (62,2), (63,2), (64,2)]⟩,
    ⟨.down, 0, [(1,0), (2,0), (3,0), (4,2), (5,0), (6,0), (7,0), (8,0), (9,2), (10,2), (11,0), (12,0), (13,0), (14,0),
    (15,2), (16,2), (17,0), (18,0), (19,2), (20,0), (21,0), (22,0), (23,2), (24,0), (25,0), (26,2), (27,2), (28,2),
    (29,2), (30,0), (31,2), (32,2), (33,0), (34,0), (35,2), (36,0), (37,0), (38,0), (39,0), (40,2), (41,2), (42,0),
    (43,2), (44,2), (45,2), (46,0), (47,2), (48,2), (49,0), (50,0), (51,2), (52,2), (53,2), (54,2), (55,0), (56,0),
    (57,2), (58,2), (59,2), (60,2), (61,0), (62,2), (63,2), (64,2)]⟩,
    ⟨.down, 1, [(1,0), (2,0), (3,2), (4,0), (5,0), (6,0), (7,0), (8,2), (9,0), (10,2), (11,0), (12,2), (13,0), (14,2),
    (15,0), (16,0), (17,0), (18,2), (19,0), (20,0), (21,0), (22,0), (23,2), (24,2), (25,2), (26,0), (27,2), (28,0),
    (29,2), (30,2), (31,0), (32,2), (33,0), (34,2), (35,0), (36,0), (37,2), (38,0), (39,2), (40,0), (41,0), (42,0),
    (43,2), (44,2), (45,2), (46,2), (47,0), (48,2), (49,2), (50,2), (51,0), (52,2), (53,0), (54,2), (55,0), (56,2),
    (57,0), (58,2), (59,2), (60,2), (61,2), (62,0), (63,2), (64,2)]⟩,
    ⟨.down, 2, [(1,0), (2,2), (3,0), (4,0), (5,0), (6,0), (7,0), (8,2), (9,2), (10,0), (11,2), (12,0), (13,2), (14,0),
    (15,0), (16,0), (17,2), (18,0), (19,0), (20,0), (21,0), (22,0), (23,2), (24,2), (25,2), (26,2), (27,0), (28,2),
    (29,0), (30,2), (31,2), (32,0), (33,2), (34,0), (35,0), (36,2), (37,0), (38,2), (39,0), (40,0), (41,0), (42,0),
    (43,2), (44,2), (45,2), (46,2), (47,2), (48,0), (49,2), (50,2), (51,2), (52,0), (53,2), (54,0), (55,2), (56,0),
    (57,0), (58,2), (59,2), (60,2), (61,2), (62,2), (63,0), (64,2)]⟩]

/-- Class `SymmetryQSZ` with 3 channel(s). -/
def ham_QSZ_3ch : Ham where
  builtin := ⟨"QSZ", 3, fields_QSZ, tab_QSZ_3ch⟩
  blocks := fblocks_QSZ_3ch
  invarF := none
  guard := .plain
  variants := [ham_QSZ_3ch_nonpolarized, ham_QSZ_3ch_polarized]

/-- `recalc_irreduc` in `nrg-recalc-QSZLR.hpp`: `qszlr-2ch-spinupa.dat`, `qszlr-2ch-spinupb.dat`, `qszlr-2ch-spindowna.dat`, `qszlr-2ch-spindownb.dat`, `qszlr-2ch-spinupdiffa.dat`, `qszlr-2ch-spinupdiffb.dat`, `qszlr-2ch-spindowndiffa.dat`, `qszlr-2ch-spindowndiffb.dat`. -/
def fblocks_QSZLR_2ch : List FBlock := [
  ⟨[1, 1, 1], 0, 0, [(5,1), (7,2), (8,2), (9,3), (10,3), (11,4), (12,6), (14,7), (14,8), (15,9), (15,10), (16,13)]⟩,
  ⟨[1, 1, 1], 1, 0, [(5,1), (7,2), (8,2), (9,3), (10,3), (11,4), (12,6), (14,7), (14,8), (15,9), (15,10), (16,13)]⟩,
  ⟨[1, -1, 1], 0, 0, [(3,1), (6,2), (7,4), (8,4), (9,5), (10,5), (12,7), (12,8), (13,9), (13,10), (14,11), (16,15)]⟩,
  ⟨[1, -1, 1], 1, 0, [(3,1), (6,2), (7,4), (8,4), (9,5), (10,5), (12,7), (12,8), (13,9), (13,10), (14,11), (16,15)]⟩,
  ⟨[1, 1, -1], 0, 0, [(4,1), (7,3), (8,3), (9,2), (10,2), (11,5), (13,6), (14,9), (14,10), (15,7), (15,8), (16,12)]⟩,
  ⟨[1, 1, -1], 1, 0, [(4,1), (7,3), (8,3), (9,2), (10,2), (11,5), (13,6), (14,9), (14,10), (15,7), (15,8), (16,12)]⟩,
  ⟨[1, -1, -1], 0, 0, [(2,1), (6,3), (7,5), (8,5), (9,4), (10,4), (12,9), (12,10), (13,7), (13,8), (15,11), (16,14)]⟩,
  ⟨[1, -1, -1], 1, 0, [(2,1), (6,3), (7,5), (8,5), (9,4), (10,4), (12,9), (12,10), (13,7), (13,8), (15,11), (16,14)]⟩]

/-- `make_matrix` in `sym-QSZLR-impl.hpp`: `qszlr/qszlr-2ch-offdiag.dat`, `qszlr/qszlr-2ch-diag.dat`. -/
def ham_QSZLR_2ch_plain : HamTable where
  variant := .plain
  hops := [
    ⟨.offdiag, 0, 0, [(1,2), (1,3), (1,4), (1,5), (2,6), (2,7), (2,8), (2,9), (2,10), (3,6), (3,7), (3,8), (3,9), (3,10),
    (4,7), (4,8), (4,9), (4,10), (4,11), (5,7), (5,8), (5,9), (5,10), (5,11), (6,12), (6,13), (7,12), (7,13),
    (7,14), (7,15), (8,12), (8,13), (8,14), (8,15), (9,12), (9,13), (9,14), (9,15), (10,12), (10,13), (10,14), (10,15),
    (11,14), (11,15), (12,16), (13,16), (14,16), (15,16)]⟩,
    ⟨.offdiag, 1, 0, [(1,2), (1,3), (1,4), (1,5), (2,6), (2,7), (2,8), (2,9), (2,10), (3,6), (3,7), (3,8), (3,9), (3,10),
    (4,7), (4,8), (4,9), (4,10), (4,11), (5,7), (5,8), (5,9), (5,10), (5,11), (6,12), (6,13), (7,12), (7,13),
    (7,14), (7,15), (8,12), (8,13), (8,14), (8,15), (9,12), (9,13), (9,14), (9,15), (10,12), (10,13), (10,14), (10,15),
    (11,14), (11,15), (12,16), (13,16), (14,16), (15,16)]⟩]
  siteHops := []
  occupations := [
    ⟨.both, 0, [(1,0), (2,1), (3,1), (4,1), (5,1), (6,2), (7,2), (8,2), (9,2), (10,2), (11,2), (12,3), (13,3), (14,3),
    (15,3), (16,4)]⟩,
    ⟨.both, 1, [(1,0), (2,1), (3,1), (4,1), (5,1), (6,2), (7,2), (8,2), (9,2), (10,2), (11,2), (12,3), (13,3), (14,3),
    (15,3), (16,4)]⟩]

/-- Class `SymmetryQSZLR` with 2 channel(s). -/
def ham_QSZLR_2ch : Ham where
  builtin := ⟨"QSZLR", 2, fields_QSZLR, tab_QSZLR_2ch⟩
  blocks := fblocks_QSZLR_2ch
  invarF := none
  guard := .plain
  variants := [ham_QSZLR_2ch_plain]

/-- `recalc_irreduc` in `nrg-recalc-QSZTZ.hpp`: `qsztz-spinup+1.dat`, `qsztz-spinup0.dat`, `qsztz-spinup-1.dat`, `qsztz-spindo+1.dat`, `qsztz-spindo0.dat`, `qsztz-spindo-1.dat`. -/
def fblocks_QSZTZ_3ch : List FBlock := [
  ⟨[1, 1, 1], 0, 0, [(7,1), (14,2), (15,2), (16,2), (17,3), (18,3), (19,4), (21,5), (22,6), (27,8), (28,8), (29,8), (30,9), (31,9),
    (32,10), (34,11), (35,11), (36,12), (36,13), (37,12), (37,13), (38,13), (39,14), (39,15), (39,16), (40,15), (40,16), (41,17),
    (41,18), (42,20), (45,23), (47,24), (48,24), (49,25), (50,25), (50,26), (51,25), (51,26), (52,27), (52,28), (53,27), (53,28),
    (53,29), (54,30), (54,31), (55,33), (56,34), (56,35), (57,36), (57,37), (57,38), (59,43), (60,44), (61,46), (62,47), (62,48),
    (63,49), (63,50), (63,51), (64,58)]⟩,
  ⟨[1, 1, 0], 0, 0, [(6,1), (12,2), (13,2), (14,3), (15,3), (17,4), (18,4), (20,5), (22,7), (25,8), (26,8), (28,9), (29,9), (30,10),
    (31,10), (33,11), (34,12), (34,13), (35,12), (35,13), (36,14), (36,15), (37,16), (38,16), (39,17), (39,18), (40,17), (40,18),
    (41,19), (42,21), (44,23), (46,24), (47,25), (47,26), (48,25), (48,26), (49,27), (50,27), (51,28), (51,29), (52,30), (52,31),
    (53,30), (53,31), (54,32), (55,34), (55,35), (56,37), (56,38), (57,39), (57,40), (58,43), (60,45), (61,47), (61,48), (62,49),
    (62,50), (63,52), (63,53), (64,59)]⟩,
  ⟨[1, 1, -1], 0, 0, [(5,1), (11,2), (12,3), (13,3), (14,4), (15,4), (16,4), (20,6), (21,7), (24,8), (25,9), (26,9), (27,10), (28,10),
    (29,10), (33,12), (33,13), (34,14), (34,15), (34,16), (35,15), (35,16), (36,17), (36,18), (37,17), (37,18), (38,18), (39,19),
    (40,19), (42,22), (43,23), (46,25), (46,26), (47,27), (47,28), (48,27), (48,28), (48,29), (49,30), (50,30), (50,31), (51,30),
    (51,31), (52,32), (53,32), (55,36), (55,37), (55,38), (56,39), (56,40), (57,41), (58,44), (59,45), (61,49), (61,50), (61,51),
    (62,52), (62,53), (63,54), (64,60)]⟩,
  ⟨[1, -1, 1], 0, 0, [(4,1), (9,2), (10,3), (14,5), (15,5), (16,5), (17,6), (18,6), (19,7), (23,8), (25,11), (26,11), (27,12), (27,13),
    (28,12), (28,13), (29,13), (30,14), (30,15), (30,16), (31,15), (31,16), (32,17), (32,18), (36,20), (37,20), (38,20), (39,21),
    (40,21), (41,22), (43,24), (44,25), (44,26), (45,27), (45,28), (45,29), (47,33), (48,33), (49,34), (50,34), (50,35), (51,34),
    (51,35), (52,36), (52,37), (53,36), (53,37), (53,38), (54,39), (54,40), (57,42), (58,46), (59,47), (59,48), (60,49), (60,50),
    (60,51), (62,55), (63,56), (64,61)]⟩,
  ⟨[1, -1, 0], 0, 0, [(3,1), (8,2), (10,4), (12,5), (13,5), (14,6), (15,6), (17,7), (18,7), (23,9), (24,11), (25,12), (25,13), (26,12),
    (26,13), (27,14), (27,15), (28,16), (29,16), (30,17), (30,18), (31,17), (31,18), (32,19), (34,20), (35,20), (37,21), (38,21),
    (39,22), (40,22), (43,25), (43,26), (44,28), (44,29), (45,30), (45,31), (46,33), (47,34), (47,35), (48,34), (48,35), (49,36),
    (50,36), (51,37), (51,38), (52,39), (52,40), (53,39), (53,40), (54,41), (56,42), (58,47), (58,48), (59,49), (59,50), (60,52),
    (60,53), (61,55), (63,57), (64,62)]⟩,
  ⟨[1, -1, -1], 0, 0, [(2,1), (8,3), (9,4), (11,5), (12,6), (13,6), (14,7), (15,7), (16,7), (23,10), (24,12), (24,13), (25,14), (25,15),
    (25,16), (26,15), (26,16), (27,17), (27,18), (28,17), (28,18), (29,18), (30,19), (31,19), (33,20), (34,21), (35,21), (36,22),
    (37,22), (38,22), (43,27), (43,28), (43,29), (44,30), (44,31), (45,32), (46,34), (46,35), (47,36), (47,37), (48,36), (48,37),
    (48,38), (49,39), (50,39), (50,40), (51,39), (51,40), (52,41), (53,41), (55,42), (58,49), (58,50), (58,51), (59,52), (59,53),
    (60,54), (61,56), (62,57), (64,63)]⟩]

/-- `make_matrix` in `sym-QSZTZ-impl.hpp`: `qsztz/qsztz-offdiag.dat`, `qsztz/qsztz-diag.dat`. -/
def ham_QSZTZ_3ch_plain : HamTable where
  variant := .plain
  hops := [
    ⟨.offdiag, 0, 0, [(1,2), (1,3), (1,4), (1,5), (1,6), (1,7), (2,8), (2,9), (2,11), (2,12), (2,13), (2,14), (2,15), (2,16),
    (3,8), (3,10), (3,12), (3,13), (3,14), (3,15), (3,17), (3,18), (4,9), (4,10), (4,14), (4,15), (4,16), (4,17),
    (4,18), (4,19), (5,11), (5,12), (5,13), (5,14), (5,15), (5,16), (5,20), (5,21), (6,12), (6,13), (6,14), (6,15),
    (6,17), (6,18), (6,20), (6,22), (7,14), (7,15), (7,16), (7,17), (7,18), (7,19), (7,21), (7,22), (8,23), (8,24),
    (8,25), (8,26), (8,27), (8,28), (8,29), (9,23), (9,25), (9,26), (9,28), (9,29), (9,30), (9,31), (10,23), (10,27),
    (10,28), (10,29), (10,30), (10,31), (10,32), (11,24), (11,25), (11,26), (11,33), (11,34), (11,35), (12,24), (12,25), (12,26),
    (12,27), (12,28), (12,33), (12,34), (12,35), (12,36), (12,37), (13,24), (13,25), (13,26), (13,27), (13,28), (13,29), (13,33),
    (13,34), (13,35), (13,36), (13,37), (13,38), (14,25), (14,27), (14,30), (14,34), (14,36), (14,39), (15,25), (15,26), (15,27),
    (15,30), (15,31), (15,34), (15,35), (15,36), (15,39), (15,40), (16,25), (16,26), (16,28), (16,29), (16,30), (16,31), (16,34),
    (16,35), (16,37), (16,38), (16,39), (16,40), (17,27), (17,28), (17,30), (17,31), (17,32), (17,36), (17,37), (17,39), (17,40),
    (17,41), (18,27), (18,28), (18,29), (18,30), (18,31), (18,32), (18,36), (18,37), (18,38), (18,39), (18,40), (18,41), (19,30),
    (19,31), (19,32), (19,39), (19,40), (19,41), (20,33), (20,34), (20,35), (20,36), (20,37), (20,38), (20,42), (21,34), (21,35),
    (21,37), (21,38), (21,39), (21,40), (21,42), (22,36), (22,37), (22,38), (22,39), (22,40), (22,41), (22,42), (23,43), (23,44),
    (23,45), (24,43), (24,46), (24,47), (24,48), (25,43), (25,44), (25,46), (25,47), (25,48), (25,49), (25,50), (25,51), (26,43),
    (26,44), (26,46), (26,47), (26,48), (26,50), (26,51), (27,43), (27,45), (27,47), (27,48), (27,49), (27,50), (27,52), (27,53),
    (28,43), (28,44), (28,45), (28,47), (28,48), (28,51), (28,52), (28,53), (29,43), (29,44), (29,45), (29,48), (29,51), (29,53),
    (30,44), (30,45), (30,49), (30,50), (30,51), (30,52), (30,53), (30,54), (31,44), (31,45), (31,50), (31,51), (31,52), (31,53),
    (31,54), (32,45), (32,52), (32,53), (32,54), (33,46), (33,47), (33,48), (33,55), (34,46), (34,47), (34,48), (34,49), (34,50),
    (34,51), (34,55), (34,56), (35,46), (35,47), (35,48), (35,50), (35,51), (35,55), (35,56), (36,47), (36,48), (36,49), (36,50),
    (36,52), (36,53), (36,55), (36,57), (37,47), (37,48), (37,51), (37,52), (37,53), (37,55), (37,56), (37,57), (38,48), (38,51),
    (38,53), (38,55), (38,56), (38,57), (39,49), (39,50), (39,51), (39,52), (39,53), (39,54), (39,56), (39,57), (40,50), (40,51),
    (40,52), (40,53), (40,54), (40,56), (40,57), (41,52), (41,53), (41,54), (41,57), (42,55), (42,56), (42,57), (43,58), (43,59),
    (44,58), (44,60), (45,59), (45,60), (46,58), (46,61), (47,58), (47,59), (47,61), (47,62), (48,58), (48,59), (48,61), (48,62),
    (49,58), (49,59), (49,60), (49,61), (49,62), (49,63), (50,58), (50,59), (50,60), (50,61), (50,62), (50,63), (51,58), (51,60),
    (51,61), (51,63), (52,59), (52,60), (52,62), (52,63), (53,59), (53,60), (53,62), (53,63), (54,60), (54,63), (55,61), (55,62),
    (56,61), (56,63), (57,62), (57,63), (58,64), (59,64), (60,64), (61,64), (62,64), (63,64)]⟩]
  siteHops := []
  occupations := [
    ⟨.both, 0, [(1,0), (2,2), (3,2), (4,2), (5,2), (6,2), (7,2), (8,4), (9,4), (10,4), (11,4), (12,4), (13,4), (14,4),
    (15,4), (16,4), (17,4), (18,4), (19,4), (20,4), (21,4), (22,4), (23,6), (24,6), (25,6), (26,6), (27,6), (28,6),
    (29,6), (30,6), (31,6), (32,6), (33,6), (34,6), (35,6), (36,6), (37,6), (38,6), (39,6), (40,6), (41,6), (42,6),
    (43,8), (44,8), (45,8), (46,8), (47,8), (48,8), (49,8), (50,8), (51,8), (52,8), (53,8), (54,8), (55,8), (56,8),
    (57,8), (58,10), (59,10), (60,10), (61,10), (62,10), (63,10), (64,12)]⟩]

/-- Class `SymmetryQSZTZ` with 3 channel(s). -/
def ham_QSZTZ_3ch : Ham where
  builtin := ⟨"QSZTZ", 3, fields_QSZTZ, tab_QSZTZ_3ch⟩
  blocks := fblocks_QSZTZ_3ch
  invarF := none
  guard := .plain
  variants := [ham_QSZTZ_3ch_plain]

/-- `recalc_irreduc` in `nrg-recalc-SL.hpp`: `sl-1ch-a.dat`. -/
def fblocks_SL_1ch : List FBlock := [
  ⟨[1], 0, 0, [(2,1)]⟩]

/-- `make_matrix` in `sym-SL-impl.hpp`: `sl/sl-1ch-offdiag.dat`, `sl/sl-1ch-diag.dat`. -/
def ham_SL_1ch_plain : HamTable where
  variant := .plain
  hops := [
    ⟨.offdiag, 0, 0, [(1,2)]⟩]
  siteHops := []
  occupations := [
    ⟨.both, 0, [(1,0), (2,2)]⟩]

/-- Class `SymmetrySL` with 1 channel(s). -/
def ham_SL_1ch : Ham where
  builtin := ⟨"SL", 1, fields_SL, tab_SL_1ch⟩
  blocks := fblocks_SL_1ch
  invarF := none
  guard := .plain
  variants := [ham_SL_1ch_plain]

/-- `recalc_irreduc` in `nrg-recalc-SL.hpp`: `sl-2ch-a.dat`, `sl-2ch-b.dat`. -/
def fblocks_SL_2ch : List FBlock := [
  ⟨[1], 0, 0, [(3,1), (4,2)]⟩,
  ⟨[1], 1, 0, [(2,1), (4,3)]⟩]

/-- `make_matrix` in `sym-SL-impl.hpp`: `sl/sl-2ch-offdiag.dat`, `sl/sl-2ch-diag.dat`. -/
def ham_SL_2ch_plain : HamTable where
  variant := .plain
  hops := [
    ⟨.offdiag, 0, 0, [(1,3), (2,4)]⟩,
    ⟨.offdiag, 1, 0, [(1,2), (3,4)]⟩]
  siteHops := []
  occupations := [
    ⟨.both, 0, [(1,0), (2,0), (3,2), (4,2)]⟩,
    ⟨.both, 1, [(1,0), (2,2), (3,0), (4,2)]⟩]

/-- Class `SymmetrySL` with 2 channel(s). -/
def ham_SL_2ch : Ham where
  builtin := ⟨"SL", 2, fields_SL, tab_SL_2ch⟩
  blocks := fblocks_SL_2ch
  invarF := none
  guard := .plain
  variants := [ham_SL_2ch_plain]

/-- `recalc_irreduc` in `nrg-recalc-SL.hpp`: `sl-3ch-a.dat`, `sl-3ch-b.dat`, `sl-3ch-c.dat`. -/
def fblocks_SL_3ch : List FBlock := [
  ⟨[1], 0, 0, [(4,1), (6,2), (7,3), (8,5)]⟩,
  ⟨[1], 1, 0, [(3,1), (5,2), (7,4), (8,6)]⟩,
  ⟨[1], 2, 0, [(2,1), (5,3), (6,4), (8,7)]⟩]

/-- `make_matrix` in `sym-SL-impl.hpp`: `sl/sl-3ch-offdiag.dat`, `sl/sl-3ch-diag.dat`. -/
def ham_SL_3ch_plain : HamTable where
  variant := .plain
  hops := [
    ⟨.offdiag, 0, 0, [(1,4), (2,6), (3,7), (5,8)]⟩,
    ⟨.offdiag, 1, 0, [(1,3), (2,5), (4,7), (6,8)]⟩,
    ⟨.offdiag, 2, 0, [(1,2), (3,5), (4,6), (7,8)]⟩]
  siteHops := []
  occupations := [
    ⟨.both, 0, [(1,0), (2,0), (3,0), (4,2), (5,0), (6,2), (7,2), (8,2)]⟩,
    ⟨.both, 1, [(1,0), (2,0), (3,2), (4,0), (5,2), (6,0), (7,2), (8,2)]⟩,
    ⟨.both, 2, [(1,0), (2,2), (3,0), (4,0), (5,2), (6,2), (7,0), (8,2)]⟩]

/-- Class `SymmetrySL` with 3 channel(s). -/
def ham_SL_3ch : Ham where
  builtin := ⟨"SL", 3, fields_SL, tab_SL_3ch⟩
  blocks := fblocks_SL_3ch
  invarF := none
  guard := .plain
  variants := [ham_SL_3ch_plain]

/-- `recalc_irreduc` in `nrg-recalc-SL3.hpp`: `sl3-3ch-a.dat`, `sl3-3ch-b.dat`, `sl3-3ch-c.dat`. -/
def fblocks_SL3_3ch : List FBlock := [
  ⟨[1, 0, 0], 0, 0, [(5,1), (6,2), (7,3), (8,4)]⟩,
  ⟨[0, 1, 0], 1, 0, [(3,1), (4,2), (7,5), (8,6)]⟩,
  ⟨[0, 0, 1], 2, 0, [(2,1), (4,3), (6,5), (8,7)]⟩]

/-- `make_matrix` in `sym-SL3-impl.hpp`: `sl3/sl3-3ch-offdiag.dat`, `sl3/sl3-3ch-diag.dat`. -/
def ham_SL3_3ch_plain : HamTable where
  variant := .plain
  hops := [
    ⟨.offdiag, 0, 0, [(1,5), (2,6), (3,7), (4,8)]⟩,
    ⟨.offdiag, 1, 0, [(1,3), (2,4), (5,7), (6,8)]⟩,
    ⟨.offdiag, 2, 0, [(1,2), (3,4), (5,6), (7,8)]⟩]
  siteHops := []
  occupations := [
    ⟨.both, 0, [(1,0), (2,0), (3,0), (4,0), (5,2), (6,2), (7,2), (8,2)]⟩,
    ⟨.both, 1, [(1,0), (2,0), (3,2), (4,2), (5,0), (6,0), (7,2), (8,2)]⟩,
    ⟨.both, 2, [(1,0), (2,2), (3,0), (4,2), (5,0), (6,2), (7,0), (8,2)]⟩]

/-- Class `SymmetrySL3` with 3 channel(s). -/
def ham_SL3_3ch : Ham where
  builtin := ⟨"SL3", 3, fields_SL3, tab_SL3_3ch⟩
  blocks := fblocks_SL3_3ch
  invarF := none
  guard := .plain
  variants := [ham_SL3_3ch_plain]

/-- `recalc_irreduc` in `nrg-recalc-SPSU2.hpp`: `spsu2-1ch-spinupa.dat`, `spsu2-1ch-spindowna.dat`. -/
def fblocks_SPSU2_1ch : List FBlock := [
  ⟨[1], 0, 0, [(2,4), (3,1)]⟩,
  ⟨[-1], 0, 0, [(2,3), (4,1)]⟩]

/-- `make_matrix` in `sym-SPSU2-impl.hpp`: `spsu2/spsu2-1ch-offdiag.dat`, `spsu2/spsu2-1ch-anomalous.dat`, `spsu2/spsu2-1ch-diag.dat`, `spsu2/spsu2-1ch-isospinx.dat`. -/
def ham_SPSU2_1ch_plain : HamTable where
  variant := .plain
  hops := [
    ⟨.offdiag, 0, 0, [(1,3), (1,4), (3,2), (4,2)]⟩,
    ⟨.anomalous, 0, 0, [(2,3), (2,4), (3,1), (4,1)]⟩]
  siteHops := [(1,2)]
  occupations := [
    ⟨.both, 0, [(1,0), (2,4), (3,2), (4,2)]⟩]

/-- Class `SymmetrySPSU2` with 1 channel(s). -/
def ham_SPSU2_1ch : Ham where
  builtin := ⟨"SPSU2", 1, fields_SPSU2, tab_SPSU2_1ch⟩
  blocks := fblocks_SPSU2_1ch
  invarF := none
  guard := .plain
  variants := [ham_SPSU2_1ch_plain]

/-- `recalc_irreduc` in `nrg-recalc-SPSU2.hpp`: `spsu2-2ch-spinupa.dat`, `spsu2-2ch-spinupb.dat`, `spsu2-2ch-spindowna.dat`, `spsu2-2ch-spindownb.dat`. -/
def fblocks_SPSU2_2ch : List FBlock := [
  ⟨[1], 0, 0, [(3,7), (4,9), (5,11), (8,1), (10,2), (12,3), (12,15), (13,16), (14,6), (15,7)]⟩,
  ⟨[1], 1, 0, [(2,7), (3,9), (5,13), (6,1), (10,3), (10,15), (11,16), (12,4), (14,8), (15,9)]⟩,
  ⟨[-1], 0, 0, [(3,6), (4,8), (5,10), (9,1), (11,2), (12,14), (13,3), (13,15), (15,6), (16,7)]⟩,
  ⟨[-1], 1, 0, [(2,6), (3,8), (5,12), (7,1), (10,14), (11,3), (11,15), (13,4), (15,8), (16,9)]⟩]

/-- `make_matrix` in `sym-SPSU2-impl.hpp`: `spsu2/spsu2-2ch-diag.dat`, `spsu2/spsu2-2ch-offdiag.dat`, `spsu2/spsu2-2ch-anomalous.dat`, `spsu2/spsu2-2ch-isospinx.dat`. -/
def ham_SPSU2_2ch_plain : HamTable where
  variant := .plain
  hops := [
    ⟨.offdiag, 0, 0, [(1,8), (1,9), (2,10), (2,11), (3,12), (3,13), (6,3), (6,14), (6,15), (7,3), (7,15), (7,16), (8,4), (9,4),
    (10,5), (11,5), (14,12), (15,12), (15,13), (16,13)]⟩,
    ⟨.offdiag, 1, 0, [(1,6), (1,7), (3,10), (3,11), (4,12), (4,13), (6,2), (7,2), (8,3), (8,14), (8,15), (9,3), (9,15), (9,16),
    (12,5), (13,5), (14,10), (15,10), (15,11), (16,11)]⟩,
    ⟨.anomalous, 0, 0, [(3,6), (3,7), (4,8), (4,9), (5,10), (5,11), (8,1), (9,1), (10,2), (11,2), (12,3), (12,14), (12,15), (13,3),
    (13,15), (13,16), (14,6), (15,6), (15,7), (16,7)]⟩,
    ⟨.anomalous, 1, 0, [(2,6), (2,7), (3,8), (3,9), (5,12), (5,13), (6,1), (7,1), (10,3), (10,14), (10,15), (11,3), (11,15), (11,16),
    (12,4), (13,4), (14,8), (15,8), (15,9), (16,9)]⟩]
  siteHops := [(1,4), (2,5), (6,12), (7,13), (1,2), (4,5), (8,10), (9,11)]
  occupations := [
    ⟨.both, 0, [(1,0), (2,0), (3,2), (4,4), (5,4), (6,0), (7,0), (8,2), (9,2), (10,2), (11,2), (12,4), (13,4), (14,2),
    (15,2), (16,2)]⟩,
    ⟨.both, 1, [(1,0), (2,4), (3,2), (4,0), (5,4), (6,2), (7,2), (8,0), (9,0), (10,4), (11,4), (12,2), (13,2), (14,2),
    (15,2), (16,2)]⟩]

/-- Class `SymmetrySPSU2` with 2 channel(s). -/
def ham_SPSU2_2ch : Ham where
  builtin := ⟨"SPSU2", 2, fields_SPSU2, tab_SPSU2_2ch⟩
  blocks := fblocks_SPSU2_2ch
  invarF := none
  guard := .plain
  variants := [ham_SPSU2_2ch_plain]

/-- `recalc_irreduc` in `nrg-recalc-SPSU2.hpp`: `spsu2-3ch-spinupa.dat`, `spsu2-3ch-spinupb.dat`, `spsu2-3ch-spinupc.dat`, `spsu2-3ch-spindowna.dat`, `spsu2-3ch-spindownb.dat`, `spsu2-3ch-spindownc.dat`. -/
def fblocks_SPSU2_3ch : List FBlock := [
  ⟨[1], 0, 0, [(4,16), (6,18), (7,20), (9,22), (10,24), (11,26), (12,28), (12,32), (13,34), (14,38), (19,1), (23,2), (27,3), (27,44),
    (28,45), (29,4), (29,47), (30,48), (31,3), (31,44), (32,45), (33,5), (35,6), (35,50), (36,51), (37,8), (39,9), (39,53),
    (40,54), (41,11), (41,56), (42,57), (46,15), (47,16), (49,17), (50,18), (52,21), (53,22), (55,25), (56,26), (58,27), (58,31),
    (58,62), (59,28), (59,32), (59,63), (60,64), (61,43), (62,44), (63,45)]⟩,
  ⟨[1], 1, 0, [(3,16), (5,18), (6,20), (8,22), (9,24), (11,28), (11,32), (12,30), (13,36), (14,40), (17,1), (21,2), (25,3), (25,44),
    (26,45), (27,4), (27,47), (28,48), (31,4), (31,47), (32,48), (33,6), (33,50), (34,51), (35,7), (37,9), (37,53), (38,54),
    (39,10), (41,12), (41,59), (42,60), (43,15), (44,16), (49,19), (50,20), (52,23), (53,24), (55,27), (55,31), (55,62), (56,28),
    (56,32), (56,63), (57,64), (58,29), (59,30), (61,46), (62,47), (63,48)]⟩,
  ⟨[1], 2, 0, [(2,16), (3,18), (4,20), (8,26), (9,28), (10,30), (11,34), (12,36), (14,42), (15,1), (21,3), (21,44), (22,45), (23,4),
    (23,47), (24,48), (25,5), (27,6), (29,7), (31,50), (32,51), (37,11), (37,56), (38,57), (39,12), (39,59), (40,60), (41,13),
    (43,17), (44,18), (46,19), (47,20), (52,31), (52,62), (53,32), (53,63), (54,64), (55,33), (56,34), (58,35), (59,36), (61,49),
    (62,50), (63,51)]⟩,
  ⟨[-1], 0, 0, [(4,15), (6,17), (7,19), (9,21), (10,23), (11,25), (12,27), (12,31), (13,33), (14,37), (20,1), (24,2), (27,43), (28,3),
    (28,44), (29,46), (30,4), (30,47), (31,43), (32,3), (32,44), (34,5), (35,49), (36,6), (36,50), (38,8), (39,52), (40,9),
    (40,53), (41,55), (42,11), (42,56), (47,15), (48,16), (50,17), (51,18), (53,21), (54,22), (56,25), (57,26), (58,61), (59,27),
    (59,31), (59,62), (60,28), (60,32), (60,63), (62,43), (63,44), (64,45)]⟩,
  ⟨[-1], 1, 0, [(3,15), (5,17), (6,19), (8,21), (9,23), (11,27), (11,31), (12,29), (13,35), (14,39), (18,1), (22,2), (25,43), (26,3),
    (26,44), (27,46), (28,4), (28,47), (31,46), (32,4), (32,47), (33,49), (34,6), (34,50), (36,7), (37,52), (38,9), (38,53),
    (40,10), (41,58), (42,12), (42,59), (44,15), (45,16), (50,19), (51,20), (53,23), (54,24), (55,61), (56,27), (56,31), (56,62),
    (57,28), (57,32), (57,63), (59,29), (60,30), (62,46), (63,47), (64,48)]⟩,
  ⟨[-1], 2, 0, [(2,15), (3,17), (4,19), (8,25), (9,27), (10,29), (11,33), (12,35), (14,41), (16,1), (21,43), (22,3), (22,44), (23,46),
    (24,4), (24,47), (26,5), (28,6), (30,7), (31,49), (32,50), (37,55), (38,11), (38,56), (39,58), (40,12), (40,59), (42,13),
    (44,17), (45,18), (47,19), (48,20), (52,61), (53,31), (53,62), (54,32), (54,63), (56,33), (57,34), (59,35), (60,36), (62,49),
    (63,50), (64,51)]⟩]

/-- `make_matrix` in `sym-SPSU2-impl.hpp`: `spsu2/spsu2-3ch-diag.dat`, `spsu2/spsu2-3ch-offdiag.dat`, `spsu2/spsu2-3ch-anomalous.dat`, `spsu2/spsu2-3ch-isospinx.dat`. -/
def ham_SPSU2_3ch_plain : HamTable where
  variant := .plain
  hops := [
    ⟨.offdiag, 0, 0, [(1,19), (1,20), (2,23), (2,24), (3,27), (3,28), (3,31), (3,32), (4,29), (4,30), (5,33), (5,34), (6,35), (6,36),
    (8,37), (8,38), (9,39), (9,40), (11,41), (11,42), (15,4), (15,46), (15,47), (16,4), (16,47), (16,48), (17,6), (17,49),
    (17,50), (18,6), (18,50), (18,51), (19,7), (20,7), (21,9), (21,52), (21,53), (22,9), (22,53), (22,54), (23,10), (24,10),
    (25,11), (25,55), (25,56), (26,11), (26,56), (26,57), (27,12), (27,58), (27,59), (28,12), (28,59), (28,60), (31,12), (31,58),
    (31,59), (32,12), (32,59), (32,60), (33,13), (34,13), (37,14), (38,14), (43,27), (43,31), (43,61), (43,62), (44,27), (44,28),
    (44,31), (44,32), (44,62), (44,63), (45,28), (45,32), (45,63), (45,64), (46,29), (47,29), (47,30), (48,30), (49,35), (50,35),
    (50,36), (51,36), (52,39), (53,39), (53,40), (54,40), (55,41), (56,41), (56,42), (57,42), (61,58), (62,58), (62,59), (63,59),
    (63,60), (64,60)]⟩,
    ⟨.offdiag, 1, 0, [(1,17), (1,18), (2,21), (2,22), (3,25), (3,26), (4,27), (4,28), (4,31), (4,32), (6,33), (6,34), (7,35), (7,36),
    (9,37), (9,38), (10,39), (10,40), (12,41), (12,42), (15,3), (15,43), (15,44), (16,3), (16,44), (16,45), (17,5), (18,5),
    (19,6), (19,49), (19,50), (20,6), (20,50), (20,51), (21,8), (22,8), (23,9), (23,52), (23,53), (24,9), (24,53), (24,54),
    (27,11), (27,55), (27,56), (28,11), (28,56), (28,57), (29,12), (29,58), (29,59), (30,12), (30,59), (30,60), (31,11), (31,55),
    (31,56), (32,11), (32,56), (32,57), (35,13), (36,13), (39,14), (40,14), (43,25), (44,25), (44,26), (45,26), (46,27), (46,31),
    (46,61), (46,62), (47,27), (47,28), (47,31), (47,32), (47,62), (47,63), (48,28), (48,32), (48,63), (48,64), (49,33), (50,33),
    (50,34), (51,34), (52,37), (53,37), (53,38), (54,38), (58,41), (59,41), (59,42), (60,42), (61,55), (62,55), (62,56), (63,56),
    (63,57), (64,57)]⟩,
    ⟨.offdiag, 2, 0, [(1,15), (1,16), (3,21), (3,22), (4,23), (4,24), (5,25), (5,26), (6,27), (6,28), (7,29), (7,30), (11,37), (11,38),
    (12,39), (12,40), (13,41), (13,42), (15,2), (16,2), (17,3), (17,43), (17,44), (18,3), (18,44), (18,45), (19,4), (19,46),
    (19,47), (20,4), (20,47), (20,48), (25,8), (26,8), (27,9), (28,9), (29,10), (30,10), (31,52), (31,53), (32,53), (32,54),
    (33,11), (33,55), (33,56), (34,11), (34,56), (34,57), (35,12), (35,58), (35,59), (36,12), (36,59), (36,60), (41,14), (42,14),
    (43,21), (44,21), (44,22), (45,22), (46,23), (47,23), (47,24), (48,24), (49,31), (49,61), (49,62), (50,31), (50,32), (50,62),
    (50,63), (51,32), (51,63), (51,64), (55,37), (56,37), (56,38), (57,38), (58,39), (59,39), (59,40), (60,40), (61,52), (62,52),
    (62,53), (63,53), (63,54), (64,54)]⟩,
    ⟨.anomalous, 0, 0, [(4,15), (4,16), (6,17), (6,18), (7,19), (7,20), (9,21), (9,22), (10,23), (10,24), (11,25), (11,26), (12,27), (12,28),
    (12,31), (12,32), (13,33), (13,34), (14,37), (14,38), (19,1), (20,1), (23,2), (24,2), (27,3), (27,43), (27,44), (28,3),
    (28,44), (28,45), (29,4), (29,46), (29,47), (30,4), (30,47), (30,48), (31,3), (31,43), (31,44), (32,3), (32,44), (32,45),
    (33,5), (34,5), (35,6), (35,49), (35,50), (36,6), (36,50), (36,51), (37,8), (38,8), (39,9), (39,52), (39,53), (40,9),
    (40,53), (40,54), (41,11), (41,55), (41,56), (42,11), (42,56), (42,57), (46,15), (47,15), (47,16), (48,16), (49,17), (50,17),
    (50,18), (51,18), (52,21), (53,21), (53,22), (54,22), (55,25), (56,25), (56,26), (57,26), (58,27), (58,31), (58,61), (58,62),
    (59,27), (59,28), (59,31), (59,32), (59,62), (59,63), (60,28), (60,32), (60,63), (60,64), (61,43), (62,43), (62,44), (63,44),
    (63,45), (64,45)]⟩,
    ⟨.anomalous, 1, 0, [(3,15), (3,16), (5,17), (5,18), (6,19), (6,20), (8,21), (8,22), (9,23), (9,24), (11,27), (11,28), (11,31), (11,32),
    (12,29), (12,30), (13,35), (13,36), (14,39), (14,40), (17,1), (18,1), (21,2), (22,2), (25,3), (25,43), (25,44), (26,3),
    (26,44), (26,45), (27,4), (27,46), (27,47), (28,4), (28,47), (28,48), (31,4), (31,46), (31,47), (32,4), (32,47), (32,48),
    (33,6), (33,49), (33,50), (34,6), (34,50), (34,51), (35,7), (36,7), (37,9), (37,52), (37,53), (38,9), (38,53), (38,54),
    (39,10), (40,10), (41,12), (41,58), (41,59), (42,12), (42,59), (42,60), (43,15), (44,15), (44,16), (45,16), (49,19), (50,19),
    (50,20), (51,20), (52,23), (53,23), (53,24), (54,24), (55,27), (55,31), (55,61), (55,62), (56,27), (56,28), (56,31), (56,32),
    (56,62), (56,63), (57,28), (57,32), (57,63), (57,64), (58,29), (59,29), (59,30), (60,30), (61,46), (62,46), (62,47), (63,47),
    (63,48), (64,48)]⟩,
    ⟨.anomalous, 2, 0, [(2,15), (2,16), (3,17), (3,18), (4,19), (4,20), (8,25), (8,26), (9,27), (9,28), (10,29), (10,30), (11,33), (11,34),
    (12,35), (12,36), (14,41), (14,42), (15,1), (16,1), (21,3), (21,43), (21,44), (22,3), (22,44), (22,45), (23,4), (23,46),
    (23,47), (24,4), (24,47), (24,48), (25,5), (26,5), (27,6), (28,6), (29,7), (30,7), (31,49), (31,50), (32,50), (32,51),
    (37,11), (37,55), (37,56), (38,11), (38,56), (38,57), (39,12), (39,58), (39,59), (40,12), (40,59), (40,60), (41,13), (42,13),
    (43,17), (44,17), (44,18), (45,18), (46,19), (47,19), (47,20), (48,20), (52,31), (52,61), (52,62), (53,31), (53,32), (53,62),
    (53,63), (54,32), (54,63), (54,64), (55,33), (56,33), (56,34), (57,34), (58,35), (59,35), (59,36), (60,36), (61,49), (62,49),
    (62,50), (63,50), (63,51), (64,51)]⟩]
  siteHops := [(1,7), (2,10), (3,12), (5,13), (8,14), (15,29), (16,30), (17,35), (18,36), (21,39), (22,40), (25,41), (26,42), (43,58),
    (44,59), (45,60), (1,5), (2,8), (4,11), (7,13), (10,14), (15,25), (16,26), (19,33), (20,34), (23,37), (24,38), (29,41),
    (30,42), (46,55), (47,56), (48,57), (1,2), (5,8), (6,9), (7,10), (13,14), (17,21), (18,22), (19,23), (20,24), (33,37),
    (34,38), (35,39), (36,40), (49,52), (50,53), (51,54)]
  occupations := [
    ⟨.both, 0, [(1,0), (2,0), (3,0), (4,2), (5,0), (6,2), (7,4), (8,0), (9,2), (10,4), (11,2), (12,4), (13,4), (14,4),
    (15,0), (16,0), (17,0), (18,0), (19,2), (20,2), (21,0), (22,0), (23,2), (24,2), (25,0), (26,0), (27,2), (28,2),
    (29,4), (30,4), (31,2), (32,2), (33,2), (34,2), (35,4), (36,4), (37,2), (38,2), (39,4), (40,4), (41,4), (42,4),
    (43,0), (44,0), (45,0), (46,2), (47,2), (48,2), (49,2), (50,2), (51,2), (52,2), (53,2), (54,2), (55,2), (56,2),
    (57,2), (58,4), (59,4), (60,4), (61,2), (62,2), (63,2), (64,2)]⟩,
    ⟨.both, 1, [(1,0), (2,0), (3,2), (4,0), (5,4), (6,2), (7,0), (8,4), (9,2), (10,0), (11,4), (12,2), (13,4), (14,4),
    (15,0), (16,0), (17,2), (18,2), (19,0), (20,0), (21,2), (22,2), (23,0), (24,0), (25,4), (26,4), (27,2), (28,2),
    (29,0), (30,0), (31,2), (32,2), (33,4), (34,4), (35,2), (36,2), (37,4), (38,4), (39,2), (40,2), (41,4), (42,4),
    (43,2), (44,2), (45,2), (46,0), (47,0), (48,0), (49,2), (50,2), (51,2), (52,2), (53,2), (54,2), (55,4), (56,4),
    (57,4), (58,2), (59,2), (60,2), (61,2), (62,2), (63,2), (64,2)]⟩,
    ⟨.both, 2, [(1,0), (2,4), (3,2), (4,2), (5,0), (6,0), (7,0), (8,4), (9,4), (10,4), (11,2), (12,2), (13,0), (14,4),
    (15,2), (16,2), (17,0), (18,0), (19,0), (20,0), (21,4), (22,4), (23,4), (24,4), (25,2), (26,2), (27,2), (28,2),
    (29,2), (30,2), (31,2), (32,2), (33,0), (34,0), (35,0), (36,0), (37,4), (38,4), (39,4), (40,4), (41,2), (42,2),
    (43,2), (44,2), (45,2), (46,2), (47,2), (48,2), (49,0), (50,0), (51,0), (52,4), (53,4), (54,4), (55,2), (56,2),
    (57,2), (58,2), (59,2), (60,2), (61,2), (62,2), (63,2), (64,2)]⟩]

/-- Class `SymmetrySPSU2` with 3 channel(s). -/
def ham_SPSU2_3ch : Ham where
  builtin := ⟨"SPSU2", 3, fields_SPSU2, tab_SPSU2_3ch⟩
  blocks := fblocks_SPSU2_3ch
  invarF := none
  guard := .plain
  variants := [ham_SPSU2_3ch_plain]

/-- `recalc_irreduc` in `nrg-recalc-SPSU2C3.hpp`: `spsu2c3-spinup0-a.dat`, `spsu2c3-spinup0-b.dat`, `spsu2c3-spinup0-c.dat`, `spsu2c3-spindown0-a.dat`, `spsu2c3-spindown0-b.dat`, `spsu2c3-spindown0-c.dat`, `spsu2c3-spinup1-a.dat`, `spsu2c3-spinup1-b.dat`, `spsu2c3-spinup1-c.dat`, `spsu2c3-spindown1-a.dat`, `spsu2c3-spindown1-b.dat`, `spsu2c3-spindown1-c.dat`, `spsu2c3-spinup2-a.dat`, `spsu2c3-spinup2-b.dat`, `spsu2c3-spinup2-c.dat`, `spsu2c3-spindown2-a.dat`, `spsu2c3-spindown2-b.dat`, `spsu2c3-spindown2-c.dat`. -/
def fblocks_SPSU2C3_3ch : List FBlock := [
  ⟨[1, 0], 0, 0, [(2,16), (3,16), (4,18), (4,20), (5,18), (5,20), (6,22), (7,24), (8,24), (9,26), (9,28), (10,26), (10,28), (10,30),
    (11,34), (12,34), (13,36), (13,38), (14,36), (14,38), (14,40), (15,1), (17,2), (17,3), (17,44), (18,45), (19,2), (19,3),
    (19,44), (20,45), (21,4), (21,5), (25,7), (25,8), (25,50), (26,51), (27,7), (27,8), (27,50), (28,51), (29,8), (29,50),
    (30,51), (31,9), (31,10), (31,53), (32,54), (35,11), (35,12), (35,56), (36,57), (37,11), (37,12), (37,56), (38,57), (39,12),
    (39,56), (40,57), (41,13), (41,14), (41,59), (42,60), (46,17), (46,19), (46,62), (47,18), (47,20), (47,63), (48,64), (49,23),
    (50,24), (52,25), (52,27), (52,29), (53,26), (53,28), (53,30), (55,33), (56,34), (58,35), (58,37), (58,39), (59,36), (59,38),
    (59,40), (61,43), (62,44), (63,45)]⟩,
  ⟨[1, 0], 1, 0, [(2,16), (3,16), (4,18), (4,20), (5,18), (5,20), (6,22), (7,24), (8,24), (9,26), (9,28), (10,26), (10,28), (10,30),
    (11,34), (12,34), (13,36), (13,38), (14,36), (14,38), (14,40), (15,1), (17,2), (17,3), (17,44), (18,45), (19,2), (19,3),
    (19,44), (20,45), (21,4), (21,5), (25,7), (25,8), (25,50), (26,51), (27,7), (27,8), (27,50), (28,51), (29,8), (29,50),
    (30,51), (31,9), (31,10), (31,53), (32,54), (35,11), (35,12), (35,56), (36,57), (37,11), (37,12), (37,56), (38,57), (39,12),
    (39,56), (40,57), (41,13), (41,14), (41,59), (42,60), (46,17), (46,19), (46,62), (47,18), (47,20), (47,63), (48,64), (49,23),
    (50,24), (52,25), (52,27), (52,29), (53,26), (53,28), (53,30), (55,33), (56,34), (58,35), (58,37), (58,39), (59,36), (59,38),
    (59,40), (61,43), (62,44), (63,45)]⟩,
  ⟨[1, 0], 2, 0, [(2,16), (3,16), (4,18), (4,20), (5,18), (5,20), (6,22), (7,24), (8,24), (9,26), (9,28), (10,26), (10,28), (10,30),
    (11,34), (12,34), (13,36), (13,38), (14,36), (14,38), (14,40), (15,1), (17,2), (17,3), (17,44), (18,45), (19,2), (19,3),
    (19,44), (20,45), (21,4), (21,5), (25,7), (25,8), (25,50), (26,51), (27,7), (27,8), (27,50), (28,51), (29,8), (29,50),
    (30,51), (31,9), (31,10), (31,53), (32,54), (35,11), (35,12), (35,56), (36,57), (37,11), (37,12), (37,56), (38,57), (39,12),
    (39,56), (40,57), (41,13), (41,14), (41,59), (42,60), (46,17), (46,19), (46,62), (47,18), (47,20), (47,63), (48,64), (49,23),
    (50,24), (52,25), (52,27), (52,29), (53,26), (53,28), (53,30), (55,33), (56,34), (58,35), (58,37), (58,39), (59,36), (59,38),
    (59,40), (61,43), (62,44), (63,45)]⟩,
  ⟨[-1, 0], 0, 0, [(2,15), (3,15), (4,17), (4,19), (5,17), (5,19), (6,21), (7,23), (8,23), (9,25), (9,27), (10,25), (10,27), (10,29),
    (11,33), (12,33), (13,35), (13,37), (14,35), (14,37), (14,39), (16,1), (17,43), (18,2), (18,3), (18,44), (19,43), (20,2),
    (20,3), (20,44), (22,4), (22,5), (25,49), (26,7), (26,8), (26,50), (27,49), (28,7), (28,8), (28,50), (29,49), (30,8),
    (30,50), (31,52), (32,9), (32,10), (32,53), (35,55), (36,11), (36,12), (36,56), (37,55), (38,11), (38,12), (38,56), (39,55),
    (40,12), (40,56), (41,58), (42,13), (42,14), (42,59), (46,61), (47,17), (47,19), (47,62), (48,18), (48,20), (48,63), (50,23),
    (51,24), (53,25), (53,27), (53,29), (54,26), (54,28), (54,30), (56,33), (57,34), (59,35), (59,37), (59,39), (60,36), (60,38),
    (60,40), (62,43), (63,44), (64,45)]⟩,
  ⟨[-1, 0], 1, 0, [(2,15), (3,15), (4,17), (4,19), (5,17), (5,19), (6,21), (7,23), (8,23), (9,25), (9,27), (10,25), (10,27), (10,29),
    (11,33), (12,33), (13,35), (13,37), (14,35), (14,37), (14,39), (16,1), (17,43), (18,2), (18,3), (18,44), (19,43), (20,2),
    (20,3), (20,44), (22,4), (22,5), (25,49), (26,7), (26,8), (26,50), (27,49), (28,7), (28,8), (28,50), (29,49), (30,8),
    (30,50), (31,52), (32,9), (32,10), (32,53), (35,55), (36,11), (36,12), (36,56), (37,55), (38,11), (38,12), (38,56), (39,55),
    (40,12), (40,56), (41,58), (42,13), (42,14), (42,59), (46,61), (47,17), (47,19), (47,62), (48,18), (48,20), (48,63), (50,23),
    (51,24), (53,25), (53,27), (53,29), (54,26), (54,28), (54,30), (56,33), (57,34), (59,35), (59,37), (59,39), (60,36), (60,38),
    (60,40), (62,43), (63,44), (64,45)]⟩,
  ⟨[-1, 0], 2, 0, [(2,15), (3,15), (4,17), (4,19), (5,17), (5,19), (6,21), (7,23), (8,23), (9,25), (9,27), (10,25), (10,27), (10,29),
    (11,33), (12,33), (13,35), (13,37), (14,35), (14,37), (14,39), (16,1), (17,43), (18,2), (18,3), (18,44), (19,43), (20,2),
    (20,3), (20,44), (22,4), (22,5), (25,49), (26,7), (26,8), (26,50), (27,49), (28,7), (28,8), (28,50), (29,49), (30,8),
    (30,50), (31,52), (32,9), (32,10), (32,53), (35,55), (36,11), (36,12), (36,56), (37,55), (38,11), (38,12), (38,56), (39,55),
    (40,12), (40,56), (41,58), (42,13), (42,14), (42,59), (46,61), (47,17), (47,19), (47,62), (48,18), (48,20), (48,63), (50,23),
    (51,24), (53,25), (53,27), (53,29), (54,26), (54,28), (54,30), (56,33), (57,34), (59,35), (59,37), (59,39), (60,36), (60,38),
    (60,40), (62,43), (63,44), (64,45)]⟩,
  ⟨[1, 1], 0, 0, [(2,34), (3,34), (4,36), (4,38), (5,36), (5,38), (5,40), (6,42), (7,16), (8,16), (9,18), (9,20), (10,18), (10,20),
    (11,24), (12,24), (13,26), (13,28), (14,26), (14,28), (14,30), (17,11), (17,12), (17,56), (18,57), (19,11), (19,12), (19,56),
    (20,57), (21,13), (21,14), (21,59), (22,60), (23,1), (25,2), (25,3), (25,44), (26,45), (27,2), (27,3), (27,44), (28,45),
    (29,3), (29,44), (30,45), (31,4), (31,5), (31,47), (32,48), (35,7), (35,8), (35,50), (36,51), (37,7), (37,8), (37,50),
    (38,51), (39,8), (39,50), (40,51), (41,9), (41,10), (43,33), (44,34), (46,35), (46,37), (46,39), (47,36), (47,38), (47,40),
    (49,15), (50,16), (52,17), (52,19), (52,62), (53,18), (53,20), (53,63), (54,64), (58,25), (58,27), (58,29), (59,26), (59,28),
    (59,30), (61,55), (62,56), (63,57)]⟩,
  ⟨[1, 1], 1, 0, [(2,34), (3,34), (4,36), (4,38), (5,36), (5,38), (5,40), (6,42), (7,16), (8,16), (9,18), (9,20), (10,18), (10,20),
    (11,24), (12,24), (13,26), (13,28), (14,26), (14,28), (14,30), (17,11), (17,12), (17,56), (18,57), (19,11), (19,12), (19,56),
    (20,57), (21,13), (21,14), (21,59), (22,60), (23,1), (25,2), (25,3), (25,44), (26,45), (27,2), (27,3), (27,44), (28,45),
    (29,3), (29,44), (30,45), (31,4), (31,5), (31,47), (32,48), (35,7), (35,8), (35,50), (36,51), (37,7), (37,8), (37,50),
    (38,51), (39,8), (39,50), (40,51), (41,9), (41,10), (43,33), (44,34), (46,35), (46,37), (46,39), (47,36), (47,38), (47,40),
    (49,15), (50,16), (52,17), (52,19), (52,62), (53,18), (53,20), (53,63), (54,64), (58,25), (58,27), (58,29), (59,26), (59,28),
    (59,30), (61,55), (62,56), (63,57)]⟩,
  ⟨[1, 1], 2, 0, [(2,34), (3,34), (4,36), (4,38), (5,36), (5,38), (5,40), (6,42), (7,16), (8,16), (9,18), (9,20), (10,18), (10,20),
    (11,24), (12,24), (13,26), (13,28), (14,26), (14,28), (14,30), (17,11), (17,12), (17,56), (18,57), (19,11), (19,12), (19,56),
    (20,57), (21,13), (21,14), (21,59), (22,60), (23,1), (25,2), (25,3), (25,44), (26,45), (27,2), (27,3), (27,44), (28,45),
    (29,3), (29,44), (30,45), (31,4), (31,5), (31,47), (32,48), (35,7), (35,8), (35,50), (36,51), (37,7), (37,8), (37,50),
    (38,51), (39,8), (39,50), (40,51), (41,9), (41,10), (43,33), (44,34), (46,35), (46,37), (46,39), (47,36), (47,38), (47,40),
    (49,15), (50,16), (52,17), (52,19), (52,62), (53,18), (53,20), (53,63), (54,64), (58,25), (58,27), (58,29), (59,26), (59,28),
    (59,30), (61,55), (62,56), (63,57)]⟩,
  ⟨[-1, 1], 0, 0, [(2,33), (3,33), (4,35), (4,37), (5,35), (5,37), (5,39), (6,41), (7,15), (8,15), (9,17), (9,19), (10,17), (10,19),
    (11,23), (12,23), (13,25), (13,27), (14,25), (14,27), (14,29), (17,55), (18,11), (18,12), (18,56), (19,55), (20,11), (20,12),
    (20,56), (21,58), (22,13), (22,14), (22,59), (24,1), (25,43), (26,2), (26,3), (26,44), (27,43), (28,2), (28,3), (28,44),
    (29,43), (30,3), (30,44), (31,46), (32,4), (32,5), (32,47), (35,49), (36,7), (36,8), (36,50), (37,49), (38,7), (38,8),
    (38,50), (39,49), (40,8), (40,50), (42,9), (42,10), (44,33), (45,34), (47,35), (47,37), (47,39), (48,36), (48,38), (48,40),
    (50,15), (51,16), (52,61), (53,17), (53,19), (53,62), (54,18), (54,20), (54,63), (59,25), (59,27), (59,29), (60,26), (60,28),
    (60,30), (62,55), (63,56), (64,57)]⟩,
  ⟨[-1, 1], 1, 0, [(2,33), (3,33), (4,35), (4,37), (5,35), (5,37), (5,39), (6,41), (7,15), (8,15), (9,17), (9,19), (10,17), (10,19),
    (11,23), (12,23), (13,25), (13,27), (14,25), (14,27), (14,29), (17,55), (18,11), (18,12), (18,56), (19,55), (20,11), (20,12),
    (20,56), (21,58), (22,13), (22,14), (22,59), (24,1), (25,43), (26,2), (26,3), (26,44), (27,43), (28,2), (28,3), (28,44),
    (29,43), (30,3), (30,44), (31,46), (32,4), (32,5), (32,47), (35,49), (36,7), (36,8), (36,50), (37,49), (38,7), (38,8),
    (38,50), (39,49), (40,8), (40,50), (42,9), (42,10), (44,33), (45,34), (47,35), (47,37), (47,39), (48,36), (48,38), (48,40),
    (50,15), (51,16), (52,61), (53,17), (53,19), (53,62), (54,18), (54,20), (54,63), (59,25), (59,27), (59,29), (60,26), (60,28),
    (60,30), (62,55), (63,56), (64,57)]⟩,
  ⟨[-1, 1], 2, 0, [(2,33), (3,33), (4,35), (4,37), (5,35), (5,37), (5,39), (6,41), (7,15), (8,15), (9,17), (9,19), (10,17), (10,19),
    (11,23), (12,23), (13,25), (13,27), (14,25), (14,27), (14,29), (17,55), (18,11), (18,12), (18,56), (19,55), (20,11), (20,12),
    (20,56), (21,58), (22,13), (22,14), (22,59), (24,1), (25,43), (26,2), (26,3), (26,44), (27,43), (28,2), (28,3), (28,44),
    (29,43), (30,3), (30,44), (31,46), (32,4), (32,5), (32,47), (35,49), (36,7), (36,8), (36,50), (37,49), (38,7), (38,8),
    (38,50), (39,49), (40,8), (40,50), (42,9), (42,10), (44,33), (45,34), (47,35), (47,37), (47,39), (48,36), (48,38), (48,40),
    (50,15), (51,16), (52,61), (53,17), (53,19), (53,62), (54,18), (54,20), (54,63), (59,25), (59,27), (59,29), (60,26), (60,28),
    (60,30), (62,55), (63,56), (64,57)]⟩,
  ⟨[1, 2], 0, 0, [(2,24), (3,24), (4,26), (4,28), (5,26), (5,28), (5,30), (6,32), (7,34), (8,34), (9,36), (9,38), (10,36), (10,38),
    (10,40), (11,16), (12,16), (13,18), (13,20), (14,18), (14,20), (17,7), (17,8), (17,50), (18,51), (19,7), (19,8), (19,50),
    (20,51), (21,9), (21,10), (21,53), (22,54), (25,11), (25,12), (25,56), (26,57), (27,11), (27,12), (27,56), (28,57), (29,12),
    (29,56), (30,57), (31,13), (31,14), (33,1), (35,2), (35,3), (35,44), (36,45), (37,2), (37,3), (37,44), (38,45), (39,3),
    (39,44), (40,45), (41,4), (41,5), (41,47), (42,48), (43,23), (44,24), (46,25), (46,27), (46,29), (47,26), (47,28), (47,30),
    (52,35), (52,37), (52,39), (53,36), (53,38), (53,40), (55,15), (56,16), (58,17), (58,19), (58,62), (59,18), (59,20), (59,63),
    (60,64), (61,49), (62,50), (63,51)]⟩,
  ⟨[1, 2], 1, 0, [(2,24), (3,24), (4,26), (4,28), (5,26), (5,28), (5,30), (6,32), (7,34), (8,34), (9,36), (9,38), (10,36), (10,38),
    (10,40), (11,16), (12,16), (13,18), (13,20), (14,18), (14,20), (17,7), (17,8), (17,50), (18,51), (19,7), (19,8), (19,50),
    (20,51), (21,9), (21,10), (21,53), (22,54), (25,11), (25,12), (25,56), (26,57), (27,11), (27,12), (27,56), (28,57), (29,12),
    (29,56), (30,57), (31,13), (31,14), (33,1), (35,2), (35,3), (35,44), (36,45), (37,2), (37,3), (37,44), (38,45), (39,3),
    (39,44), (40,45), (41,4), (41,5), (41,47), (42,48), (43,23), (44,24), (46,25), (46,27), (46,29), (47,26), (47,28), (47,30),
    (52,35), (52,37), (52,39), (53,36), (53,38), (53,40), (55,15), (56,16), (58,17), (58,19), (58,62), (59,18), (59,20), (59,63),
    (60,64), (61,49), (62,50), (63,51)]⟩,
  ⟨[1, 2], 2, 0, [(2,24), (3,24), (4,26), (4,28), (5,26), (5,28), (5,30), (6,32), (7,34), (8,34), (9,36), (9,38), (10,36), (10,38),
    (10,40), (11,16), (12,16), (13,18), (13,20), (14,18), (14,20), (17,7), (17,8), (17,50), (18,51), (19,7), (19,8), (19,50),
    (20,51), (21,9), (21,10), (21,53), (22,54), (25,11), (25,12), (25,56), (26,57), (27,11), (27,12), (27,56), (28,57), (29,12),
    (29,56), (30,57), (31,13), (31,14), (33,1), (35,2), (35,3), (35,44), (36,45), (37,2), (37,3), (37,44), (38,45), (39,3),
    (39,44), (40,45), (41,4), (41,5), (41,47), (42,48), (43,23), (44,24), (46,25), (46,27), (46,29), (47,26), (47,28), (47,30),
    (52,35), (52,37), (52,39), (53,36), (53,38), (53,40), (55,15), (56,16), (58,17), (58,19), (58,62), (59,18), (59,20), (59,63),
    (60,64), (61,49), (62,50), (63,51)]⟩,
  ⟨[-1, 2], 0, 0, [(2,23), (3,23), (4,25), (4,27), (5,25), (5,27), (5,29), (6,31), (7,33), (8,33), (9,35), (9,37), (10,35), (10,37),
    (10,39), (11,15), (12,15), (13,17), (13,19), (14,17), (14,19), (17,49), (18,7), (18,8), (18,50), (19,49), (20,7), (20,8),
    (20,50), (21,52), (22,9), (22,10), (22,53), (25,55), (26,11), (26,12), (26,56), (27,55), (28,11), (28,12), (28,56), (29,55),
    (30,12), (30,56), (32,13), (32,14), (34,1), (35,43), (36,2), (36,3), (36,44), (37,43), (38,2), (38,3), (38,44), (39,43),
    (40,3), (40,44), (41,46), (42,4), (42,5), (42,47), (44,23), (45,24), (47,25), (47,27), (47,29), (48,26), (48,28), (48,30),
    (53,35), (53,37), (53,39), (54,36), (54,38), (54,40), (56,15), (57,16), (58,61), (59,17), (59,19), (59,62), (60,18), (60,20),
    (60,63), (62,49), (63,50), (64,51)]⟩,
  ⟨[-1, 2], 1, 0, [(2,23), (3,23), (4,25), (4,27), (5,25), (5,27), (5,29), (6,31), (7,33), (8,33), (9,35), (9,37), (10,35), (10,37),
    (10,39), (11,15), (12,15), (13,17), (13,19), (14,17), (14,19), (17,49), (18,7), (18,8), (18,50), (19,49), (20,7), (20,8),
    (20,50), (21,52), (22,9), (22,10), (22,53), (25,55), (26,11), (26,12), (26,56), (27,55), (28,11), (28,12), (28,56), (29,55),
    (30,12), (30,56), (32,13), (32,14), (34,1), (35,43), (36,2), (36,3), (36,44), (37,43), (38,2), (38,3), (38,44), (39,43),
    (40,3), (40,44), (41,46), (42,4), (42,5), (42,47), (44,23), (45,24), (47,25), (47,27), (47,29), (48,26), (48,28), (48,30),
    (53,35), (53,37), (53,39), (54,36), (54,38), (54,40), (56,15), (57,16), (58,61), (59,17), (59,19), (59,62), (60,18), (60,20),
    (60,63), (62,49), (63,50), (64,51)]⟩,
  ⟨[-1, 2], 2, 0, [(2,23), (3,23), (4,25), (4,27), (5,25), (5,27), (5,29), (6,31), (7,33), (8,33), (9,35), (9,37), (10,35), (10,37),
    (10,39), (11,15), (12,15), (13,17), (13,19), (14,17), (14,19), (17,49), (18,7), (18,8), (18,50), (19,49), (20,7), (20,8),
    (20,50), (21,52), (22,9), (22,10), (22,53), (25,55), (26,11), (26,12), (26,56), (27,55), (28,11), (28,12), (28,56), (29,55),
    (30,12), (30,56), (32,13), (32,14), (34,1), (35,43), (36,2), (36,3), (36,44), (37,43), (38,2), (38,3), (38,44), (39,43),
    (40,3), (40,44), (41,46), (42,4), (42,5), (42,47), (44,23), (45,24), (47,25), (47,27), (47,29), (48,26), (48,28), (48,30),
    (53,35), (53,37), (53,39), (54,36), (54,38), (54,40), (56,15), (57,16), (58,61), (59,17), (59,19), (59,62), (60,18), (60,20),
    (60,63), (62,49), (63,50), (64,51)]⟩]

/-- `make_matrix` in `sym-SPSU2C3-impl.hpp`: `spsu2c3/spsu2c3-diag.dat`, `spsu2c3/spsu2c3-offdiag.dat`, `spsu2c3/spsu2c3-isospinx.dat`. -/
def ham_SPSU2C3_3ch_plain : HamTable where
  variant := .plain
  hops := [
    ⟨.offdiag, 0, 0, [(1,15), (1,16), (1,23), (1,24), (1,33), (1,34), (2,17), (2,18), (2,19), (2,20), (2,25), (2,26), (2,27), (2,28),
    (2,35), (2,36), (2,37), (2,38), (3,17), (3,18), (3,19), (3,20), (3,25), (3,26), (3,27), (3,28), (3,29), (3,30),
    (3,35), (3,36), (3,37), (3,38), (3,39), (3,40), (4,21), (4,22), (4,31), (4,32), (4,41), (4,42), (5,21), (5,22),
    (5,31), (5,32), (5,41), (5,42), (7,17), (7,18), (7,19), (7,20), (7,25), (7,26), (7,27), (7,28), (7,35), (7,36),
    (7,37), (7,38), (8,17), (8,18), (8,19), (8,20), (8,25), (8,26), (8,27), (8,28), (8,29), (8,30), (8,35), (8,36),
    (8,37), (8,38), (8,39), (8,40), (9,21), (9,22), (9,31), (9,32), (9,41), (9,42), (10,21), (10,22), (10,31), (10,32),
    (10,41), (10,42), (11,17), (11,18), (11,19), (11,20), (11,25), (11,26), (11,27), (11,28), (11,35), (11,36), (11,37), (11,38),
    (12,17), (12,18), (12,19), (12,20), (12,25), (12,26), (12,27), (12,28), (12,29), (12,30), (12,35), (12,36), (12,37), (12,38),
    (12,39), (12,40), (13,21), (13,22), (13,31), (13,32), (13,41), (13,42), (14,21), (14,22), (14,31), (14,32), (14,41), (14,42),
    (15,2), (15,3), (15,7), (15,8), (15,11), (15,12), (15,49), (15,50), (15,55), (15,56), (16,2), (16,3), (16,7), (16,8),
    (16,11), (16,12), (16,50), (16,51), (16,56), (16,57), (17,4), (17,5), (17,9), (17,10), (17,13), (17,14), (17,46), (17,47),
    (17,52), (17,53), (17,58), (17,59), (18,4), (18,5), (18,9), (18,10), (18,13), (18,14), (18,47), (18,48), (18,53), (18,54),
    (18,59), (18,60), (19,4), (19,5), (19,9), (19,10), (19,13), (19,14), (19,46), (19,47), (19,52), (19,53), (19,58), (19,59),
    (20,4), (20,5), (20,9), (20,10), (20,13), (20,14), (20,47), (20,48), (20,53), (20,54), (20,59), (20,60), (21,6), (22,6),
    (23,2), (23,3), (23,7), (23,8), (23,11), (23,12), (23,43), (23,44), (23,49), (23,50), (24,2), (24,3), (24,7), (24,8),
    (24,11), (24,12), (24,44), (24,45), (24,50), (24,51), (25,4), (25,5), (25,9), (25,10), (25,13), (25,14), (25,46), (25,47),
    (25,52), (25,53), (25,58), (25,59), (26,4), (26,5), (26,9), (26,10), (26,13), (26,14), (26,47), (26,48), (26,53), (26,54),
    (26,59), (26,60), (27,4), (27,5), (27,9), (27,10), (27,13), (27,14), (27,46), (27,47), (27,52), (27,53), (27,58), (27,59),
    (28,4), (28,5), (28,9), (28,10), (28,13), (28,14), (28,47), (28,48), (28,53), (28,54), (28,59), (28,60), (29,5), (29,10),
    (29,14), (29,46), (29,47), (29,52), (29,53), (29,58), (29,59), (30,5), (30,10), (30,14), (30,47), (30,48), (30,53), (30,54),
    (30,59), (30,60), (31,6), (32,6), (33,2), (33,3), (33,7), (33,8), (33,11), (33,12), (33,43), (33,44), (33,55), (33,56),
    (34,2), (34,3), (34,7), (34,8), (34,11), (34,12), (34,44), (34,45), (34,56), (34,57), (35,4), (35,5), (35,9), (35,10),
    (35,13), (35,14), (35,46), (35,47), (35,52), (35,53), (35,58), (35,59), (36,4), (36,5), (36,9), (36,10), (36,13), (36,14),
    (36,47), (36,48), (36,53), (36,54), (36,59), (36,60), (37,4), (37,5), (37,9), (37,10), (37,13), (37,14), (37,46), (37,47),
    (37,52), (37,53), (37,58), (37,59), (38,4), (38,5), (38,9), (38,10), (38,13), (38,14), (38,47), (38,48), (38,53), (38,54),
    (38,59), (38,60), (39,5), (39,10), (39,14), (39,46), (39,47), (39,52), (39,53), (39,58), (39,59), (40,5), (40,10), (40,14),
    (40,47), (40,48), (40,53), (40,54), (40,59), (40,60), (41,6), (42,6), (43,17), (43,19), (43,25), (43,27), (43,29), (43,35),
    (43,37), (43,39), (43,61), (43,62), (44,17), (44,18), (44,19), (44,20), (44,25), (44,26), (44,27), (44,28), (44,29), (44,30),
    (44,35), (44,36), (44,37), (44,38), (44,39), (44,40), (44,62), (44,63), (45,18), (45,20), (45,26), (45,28), (45,30), (45,36),
    (45,38), (45,40), (45,63), (45,64), (46,31), (46,41), (47,31), (47,32), (47,41), (47,42), (48,32), (48,42), (49,17), (49,19),
    (49,25), (49,27), (49,29), (49,35), (49,37), (49,39), (49,61), (49,62), (50,17), (50,18), (50,19), (50,20), (50,25), (50,26),
    (50,27), (50,28), (50,29), (50,30), (50,35), (50,36), (50,37), (50,38), (50,39), (50,40), (50,62), (50,63), (51,18), (51,20),
    (51,26), (51,28), (51,30), (51,36), (51,38), (51,40), (51,63), (51,64), (52,21), (52,31), (53,21), (53,22), (53,31), (53,32),
    (54,22), (54,32), (55,17), (55,19), (55,25), (55,27), (55,29), (55,35), (55,37), (55,39), (55,61), (55,62), (56,17), (56,18),
    (56,19), (56,20), (56,25), (56,26), (56,27), (56,28), (56,29), (56,30), (56,35), (56,36), (56,37), (56,38), (56,39), (56,40),
    (56,62), (56,63), (57,18), (57,20), (57,26), (57,28), (57,30), (57,36), (57,38), (57,40), (57,63), (57,64), (58,21), (58,41),
    (59,21), (59,22), (59,41), (59,42), (60,22), (60,42), (61,46), (61,52), (61,58), (62,46), (62,47), (62,52), (62,53), (62,58),
    (62,59), (63,47), (63,48), (63,53), (63,54), (63,59), (63,60), (64,48), (64,54), (64,60)]⟩,
    ⟨.offdiag, 1, 0, [(1,15), (1,16), (1,23), (1,24), (1,33), (1,34), (2,17), (2,18), (2,19), (2,20), (2,25), (2,26), (2,27), (2,28),
    (2,35), (2,36), (2,37), (2,38), (3,17), (3,18), (3,19), (3,20), (3,25), (3,26), (3,27), (3,28), (3,29), (3,30),
    (3,35), (3,36), (3,37), (3,38), (3,39), (3,40), (4,21), (4,22), (4,31), (4,32), (4,41), (4,42), (5,21), (5,22),
    (5,31), (5,32), (5,41), (5,42), (7,17), (7,18), (7,19), (7,20), (7,25), (7,26), (7,27), (7,28), (7,35), (7,36),
    (7,37), (7,38), (8,17), (8,18), (8,19), (8,20), (8,25), (8,26), (8,27), (8,28), (8,29), (8,30), (8,35), (8,36),
    (8,37), (8,38), (8,39), (8,40), (9,21), (9,22), (9,31), (9,32), (9,41), (9,42), (10,21), (10,22), (10,31), (10,32),
    (10,41), (10,42), (11,17), (11,18), (11,19), (11,20), (11,25), (11,26), (11,27), (11,28), (11,35), (11,36), (11,37), (11,38),
    (12,17), (12,18), (12,19), (12,20), (12,25), (12,26), (12,27), (12,28), (12,29), (12,30), (12,35), (12,36), (12,37), (12,38),
    (12,39), (12,40), (13,21), (13,22), (13,31), (13,32), (13,41), (13,42), (14,21), (14,22), (14,31), (14,32), (14,41), (14,42),
    (15,2), (15,3), (15,7), (15,8), (15,11), (15,12), (15,49), (15,50), (15,55), (15,56), (16,2), (16,3), (16,7), (16,8),
    (16,11), (16,12), (16,50), (16,51), (16,56), (16,57), (17,4), (17,5), (17,9), (17,10), (17,13), (17,14), (17,46), (17,47),
    (17,52), (17,53), (17,58), (17,59), (18,4), (18,5), (18,9), (18,10), (18,13), (18,14), (18,47), (18,48), (18,53), (18,54),
    (18,59), (18,60), (19,4), (19,5), (19,9), (19,10), (19,13), (19,14), (19,46), (19,47), (19,52), (19,53), (19,58), (19,59),
    (20,4), (20,5), (20,9), (20,10), (20,13), (20,14), (20,47), (20,48), (20,53), (20,54), (20,59), (20,60), (21,6), (22,6),
    (23,2), (23,3), (23,7), (23,8), (23,11), (23,12), (23,43), (23,44), (23,49), (23,50), (24,2), (24,3), (24,7), (24,8),
    (24,11), (24,12), (24,44), (24,45), (24,50), (24,51), (25,4), (25,5), (25,9), (25,10), (25,13), (25,14), (25,46), (25,47),
    (25,52), (25,53), (25,58), (25,59), (26,4), (26,5), (26,9), (26,10), (26,13), (26,14), (26,47), (26,48), (26,53), (26,54),
    (26,59), (26,60), (27,4), (27,5), (27,9), (27,10), (27,13), (27,14), (27,46), (27,47), (27,52), (27,53), (27,58), (27,59),
    (28,4), (28,5), (28,9), (28,10), (28,13), (28,14), (28,47), (28,48), (28,53), (28,54), (28,59), (28,60), (29,5), (29,10),
    (29,14), (29,46), (29,47), (29,52), (29,53), (29,58), (29,59), (30,5), (30,10), (30,14), (30,47), (30,48), (30,53), (30,54),
    (30,59), (30,60), (31,6), (32,6), (33,2), (33,3), (33,7), (33,8), (33,11), (33,12), (33,43), (33,44), (33,55), (33,56),
    (34,2), (34,3), (34,7), (34,8), (34,11), (34,12), (34,44), (34,45), (34,56), (34,57), (35,4), (35,5), (35,9), (35,10),
    (35,13), (35,14), (35,46), (35,47), (35,52), (35,53), (35,58), (35,59), (36,4), (36,5), (36,9), (36,10), (36,13), (36,14),
    (36,47), (36,48), (36,53), (36,54), (36,59), (36,60), (37,4), (37,5), (37,9), (37,10), (37,13), (37,14), (37,46), (37,47),
    (37,52), (37,53), (37,58), (37,59), (38,4), (38,5), (38,9), (38,10), (38,13), (38,14), (38,47), (38,48), (38,53), (38,54),
    (38,59), (38,60), (39,5), (39,10), (39,14), (39,46), (39,47), (39,52), (39,53), (39,58), (39,59), (40,5), (40,10), (40,14),
    (40,47), (40,48), (40,53), (40,54), (40,59), (40,60), (41,6), (42,6), (43,17), (43,19), (43,25), (43,27), (43,29), (43,35),
    (43,37), (43,39), (43,61), (43,62), (44,17), (44,18), (44,19), (44,20), (44,25), (44,26), (44,27), (44,28), (44,29), (44,30),
    (44,35), (44,36), (44,37), (44,38), (44,39), (44,40), (44,62), (44,63), (45,18), (45,20), (45,26), (45,28), (45,30), (45,36),
    (45,38), (45,40), (45,63), (45,64), (46,31), (46,41), (47,31), (47,32), (47,41), (47,42), (48,32), (48,42), (49,17), (49,19),
    (49,25), (49,27), (49,29), (49,35), (49,37), (49,39), (49,61), (49,62), (50,17), (50,18), (50,19), (50,20), (50,25), (50,26),
    (50,27), (50,28), (50,29), (50,30), (50,35), (50,36), (50,37), (50,38), (50,39), (50,40), (50,62), (50,63), (51,18), (51,20),
    (51,26), (51,28), (51,30), (51,36), (51,38), (51,40), (51,63), (51,64), (52,21), (52,31), (53,21), (53,22), (53,31), (53,32),
    (54,22), (54,32), (55,17), (55,19), (55,25), (55,27), (55,29), (55,35), (55,37), (55,39), (55,61), (55,62), (56,17), (56,18),
    (56,19), (56,20), (56,25), (56,26), (56,27), (56,28), (56,29), (56,30), (56,35), (56,36), (56,37), (56,38), (56,39), (56,40),
    (56,62), (56,63), (57,18), (57,20), (57,26), (57,28), (57,30), (57,36), (57,38), (57,40), (57,63), (57,64), (58,21), (58,41),
    (59,21), (59,22), (59,41), (59,42), (60,22), (60,42), (61,46), (61,52), (61,58), (62,46), (62,47), (62,52), (62,53), (62,58),
    (62,59), (63,47), (63,48), (63,53), (63,54), (63,59), (63,60), (64,48), (64,54), (64,60)]⟩,
    ⟨.offdiag, 2, 0, [(1,15), (1,16), (1,23), (1,24), (1,33), (1,34), (2,17), (2,18), (2,19), (2,20), (2,25), (2,26), (2,27), (2,28),
    (2,35), (2,36), (2,37), (2,38), (3,17), (3,18), (3,19), (3,20), (3,25), (3,26), (3,27), (3,28), (3,29), (3,30),
    (3,35), (3,36), (3,37), (3,38), (3,39), (3,40), (4,21), (4,22), (4,31), (4,32), (4,41), (4,42), (5,21), (5,22),
    (5,31), (5,32), (5,41), (5,42), (7,17), (7,18), (7,19), (7,20), (7,25), (7,26), (7,27), (7,28), (7,35), (7,36),
    (7,37), (7,38), (8,17), (8,18), (8,19), (8,20), (8,25), (8,26), (8,27), (8,28), (8,29), (8,30), (8,35), (8,36),
    (8,37), (8,38), (8,39), (8,40), (9,21), (9,22), (9,31), (9,32), (9,41), (9,42), (10,21), (10,22), (10,31), (10,32),
    (10,41), (10,42), (11,17), (11,18), (11,19), (11,20), (11,25), (11,26), (11,27), (11,28), (11,35), (11,36), (11,37), (11,38),
    (12,17), (12,18), (12,19), (12,20), (12,25), (12,26), (12,27), (12,28), (12,29), (12,30), (12,35), (12,36), (12,37), (12,38),
    (12,39), (12,40), (13,21), (13,22), (13,31), (13,32), (13,41), (13,42), (14,21), (14,22), (14,31), (14,32), (14,41), (14,42),
    (15,2), (15,3), (15,7), (15,8), (15,11), (15,12), (15,49), (15,50), (15,55), (15,56), (16,2), (16,3), (16,7), (16,8),
    (16,11), (16,12), (16,50), (16,51), (16,56), (16,57), (17,4), (17,5), (17,9), (17,10), (17,13), (17,14), (17,46), (17,47),
    (17,52), (17,53), (17,58), (17,59), (18,4), (18,5), (18,9), (18,10), (18,13), (18,14), (18,47), (18,48), (18,53), (18,54),
    (18,59), (18,60), (19,4), (19,5), (19,9), (19,10), (19,13), (19,14), (19,46), (19,47), (19,52), (19,53), (19,58), (19,59),
    (20,4), (20,5), (20,9), (20,10), (20,13), (20,14), (20,47), (20,48), (20,53), (20,54), (20,59), (20,60), (21,6), (22,6),
    (23,2), (23,3), (23,7), (23,8), (23,11), (23,12), (23,43), (23,44), (23,49), (23,50), (24,2), (24,3), (24,7), (24,8),
    (24,11), (24,12), (24,44), (24,45), (24,50), (24,51), (25,4), (25,5), (25,9), (25,10), (25,13), (25,14), (25,46), (25,47),
    (25,52), (25,53), (25,58), (25,59), (26,4), (26,5), (26,9), (26,10), (26,13), (26,14), (26,47), (26,48), (26,53), (26,54),
    (26,59), (26,60), (27,4), (27,5), (27,9), (27,10), (27,13), (27,14), (27,46), (27,47), (27,52), (27,53), (27,58), (27,59),
    (28,4), (28,5), (28,9), (28,10), (28,13), (28,14), (28,47), (28,48), (28,53), (28,54), (28,59), (28,60), (29,5), (29,10),
    (29,14), (29,46), (29,47), (29,52), (29,53), (29,58), (29,59), (30,5), (30,10), (30,14), (30,47), (30,48), (30,53), (30,54),
    (30,59), (30,60), (31,6), (32,6), (33,2), (33,3), (33,7), (33,8), (33,11), (33,12), (33,43), (33,44), (33,55), (33,56),
    (34,2), (34,3), (34,7), (34,8), (34,11), (34,12), (34,44), (34,45), (34,56), (34,57), (35,4), (35,5), (35,9), (35,10),
    (35,13), (35,14), (35,46), (35,47), (35,52), (35,53), (35,58), (35,59), (36,4), (36,5), (36,9), (36,10), (36,13), (36,14),
    (36,47), (36,48), (36,53), (36,54), (36,59), (36,60), (37,4), (37,5), (37,9), (37,10), (37,13), (37,14), (37,46), (37,47),
    (37,52), (37,53), (37,58), (37,59), (38,4), (38,5), (38,9), (38,10), (38,13), (38,14), (38,47), (38,48), (38,53), (38,54),
    (38,59), (38,60), (39,5), (39,10), (39,14), (39,46), (39,47), (39,52), (39,53), (39,58), (39,59), (40,5), (40,10), (40,14),
    (40,47), (40,48), (40,53), (40,54), (40,59), (40,60), (41,6), (42,6), (43,17), (43,19), (43,25), (43,27), (43,29), (43,35),
    (43,37), (43,39), (43,61), (43,62), (44,17), (44,18), (44,19), (44,20), (44,25), (44,26), (44,27), (44,28), (44,29), (44,30),
    (44,35), (44,36), (44,37), (44,38), (44,39), (44,40), (44,62), (44,63), (45,18), (45,20), (45,26), (45,28), (45,30), (45,36),
    (45,38), (45,40), (45,63), (45,64), (46,31), (46,41), (47,31), (47,32), (47,41), (47,42), (48,32), (48,42), (49,17), (49,19),
    (49,25), (49,27), (49,29), (49,35), (49,37), (49,39), (49,61), (49,62), (50,17), (50,18), (50,19), (50,20), (50,25), (50,26),
    (50,27), (50,28), (50,29), (50,30), (50,35), (50,36), (50,37), (50,38), (50,39), (50,40), (50,62), (50,63), (51,18), (51,20),
    (51,26), (51,28), (51,30), (51,36), (51,38), (51,40), (51,63), (51,64), (52,21), (52,31), (53,21), (53,22), (53,31), (53,32),
    (54,22), (54,32), (55,17), (55,19), (55,25), (55,27), (55,29), (55,35), (55,37), (55,39), (55,61), (55,62), (56,17), (56,18),
    (56,19), (56,20), (56,25), (56,26), (56,27), (56,28), (56,29), (56,30), (56,35), (56,36), (56,37), (56,38), (56,39), (56,40),
    (56,62), (56,63), (57,18), (57,20), (57,26), (57,28), (57,30), (57,36), (57,38), (57,40), (57,63), (57,64), (58,21), (58,41),
    (59,21), (59,22), (59,41), (59,42), (60,22), (60,42), (61,46), (61,52), (61,58), (62,46), (62,47), (62,52), (62,53), (62,58),
    (62,59), (63,47), (63,48), (63,53), (63,54), (63,59), (63,60), (64,48), (64,54), (64,60)]⟩]
  siteHops := [(1,2), (2,4), (3,5), (4,6), (7,9), (8,10), (11,13), (12,14), (15,17), (15,19), (16,18), (16,20), (17,21), (18,22),
    (19,21), (20,22), (23,25), (23,27), (24,26), (24,28), (25,31), (26,32), (27,31), (28,32), (33,35), (33,37), (34,36), (34,38),
    (35,41), (36,42), (37,41), (38,42), (43,46), (44,47), (45,48), (49,52), (50,53), (51,54), (55,58), (56,59), (57,60)]
  occupations := [
    ⟨.both, 0, [(1,0), (2,4), (3,4), (4,8), (5,8), (6,12), (7,4), (8,4), (9,8), (10,8), (11,4), (12,4), (13,8), (14,8),
    (15,2), (16,2), (17,6), (18,6), (19,6), (20,6), (21,10), (22,10), (23,2), (24,2), (25,6), (26,6), (27,6), (28,6),
    (29,6), (30,6), (31,10), (32,10), (33,2), (34,2), (35,6), (36,6), (37,6), (38,6), (39,6), (40,6), (41,10), (42,10),
    (43,4), (44,4), (45,4), (46,8), (47,8), (48,8), (49,4), (50,4), (51,4), (52,8), (53,8), (54,8), (55,4), (56,4),
    (57,4), (58,8), (59,8), (60,8), (61,6), (62,6), (63,6), (64,6)]⟩]

/-- Class `SymmetrySPSU2C3` with 3 channel(s). -/
def ham_SPSU2C3_3ch : Ham where
  builtin := ⟨"SPSU2C3", 3, fields_SPSU2C3, tab_SPSU2C3_3ch⟩
  blocks := fblocks_SPSU2C3_3ch
  invarF := none
  guard := .plain
  variants := [ham_SPSU2C3_3ch_plain]

/-- `recalc_irreduc` in `nrg-recalc-SPSU2LR.hpp`: `spsu2lr-2ch-spinupa.dat`, `spsu2lr-2ch-spinupb.dat`, `spsu2lr-2ch-spindowna.dat`, `spsu2lr-2ch-spindownb.dat`, `spsu2lr-2ch-spinupdiffa.dat`, `spsu2lr-2ch-spinupdiffb.dat`, `spsu2lr-2ch-spindowndiffa.dat`, `spsu2lr-2ch-spindowndiffb.dat`. -/
def fblocks_SPSU2LR_2ch : List FBlock := [
  ⟨[1, 1], 0, 0, [(1,7), (3,11), (4,11), (5,13), (8,1), (8,15), (9,16), (10,2), (12,3), (12,4), (14,6), (15,7)]⟩,
  ⟨[1, 1], 1, 0, [(1,7), (3,11), (4,11), (5,13), (8,1), (8,15), (9,16), (10,2), (12,3), (12,4), (14,6), (15,7)]⟩,
  ⟨[-1, 1], 0, 0, [(1,6), (3,10), (4,10), (5,12), (8,14), (9,1), (9,15), (11,2), (13,3), (13,4), (15,6), (16,7)]⟩,
  ⟨[-1, 1], 1, 0, [(1,6), (3,10), (4,10), (5,12), (8,14), (9,1), (9,15), (11,2), (13,3), (13,4), (15,6), (16,7)]⟩,
  ⟨[1, -1], 0, 0, [(1,11), (3,7), (4,7), (5,9), (6,2), (8,3), (8,4), (12,1), (12,15), (13,16), (14,10), (15,11)]⟩,
  ⟨[1, -1], 1, 0, [(1,11), (3,7), (4,7), (5,9), (6,2), (8,3), (8,4), (12,1), (12,15), (13,16), (14,10), (15,11)]⟩,
  ⟨[-1, -1], 0, 0, [(1,10), (3,6), (4,6), (5,8), (7,2), (9,3), (9,4), (12,14), (13,1), (13,15), (15,10), (16,11)]⟩,
  ⟨[-1, -1], 1, 0, [(1,10), (3,6), (4,6), (5,8), (7,2), (9,3), (9,4), (12,14), (13,1), (13,15), (15,10), (16,11)]⟩]

/-- `make_matrix` in `sym-SPSU2LR-impl.hpp`: `spsu2lr/spsu2lr-2ch-diag.dat`, `spsu2lr/spsu2lr-2ch-offdiag.dat`, `spsu2lr/spsu2lr-2ch-anomalous.dat`, `spsu2lr/spsu2lr-2ch-isospinx.dat`. -/
def ham_SPSU2LR_2ch_plain : HamTable where
  variant := .plain
  hops := [
    ⟨.offdiag, 0, 0, [(1,8), (1,9), (1,12), (1,13), (2,6), (2,7), (2,10), (2,11), (3,8), (3,9), (3,12), (3,13), (4,8), (4,9),
    (4,12), (4,13), (6,1), (6,3), (6,4), (6,14), (6,15), (7,1), (7,3), (7,4), (7,15), (7,16), (8,5), (9,5),
    (10,1), (10,3), (10,4), (10,14), (10,15), (11,1), (11,3), (11,4), (11,15), (11,16), (12,5), (13,5), (14,8), (14,12),
    (15,8), (15,9), (15,12), (15,13), (16,9), (16,13)]⟩,
    ⟨.offdiag, 1, 0, [(1,8), (1,9), (1,12), (1,13), (2,6), (2,7), (2,10), (2,11), (3,8), (3,9), (3,12), (3,13), (4,8), (4,9),
    (4,12), (4,13), (6,1), (6,3), (6,4), (6,14), (6,15), (7,1), (7,3), (7,4), (7,15), (7,16), (8,5), (9,5),
    (10,1), (10,3), (10,4), (10,14), (10,15), (11,1), (11,3), (11,4), (11,15), (11,16), (12,5), (13,5), (14,8), (14,12),
    (15,8), (15,9), (15,12), (15,13), (16,9), (16,13)]⟩,
    ⟨.anomalous, 0, 0, [(1,6), (1,7), (1,10), (1,11), (3,6), (3,7), (3,10), (3,11), (4,6), (4,7), (4,10), (4,11), (5,8), (5,9),
    (5,12), (5,13), (6,2), (7,2), (8,1), (8,3), (8,4), (8,14), (8,15), (9,1), (9,3), (9,4), (9,15), (9,16),
    (10,2), (11,2), (12,1), (12,3), (12,4), (12,14), (12,15), (13,1), (13,3), (13,4), (13,15), (13,16), (14,6), (14,10),
    (15,6), (15,7), (15,10), (15,11), (16,7), (16,11)]⟩,
    ⟨.anomalous, 1, 0, [(1,6), (1,7), (1,10), (1,11), (3,6), (3,7), (3,10), (3,11), (4,6), (4,7), (4,10), (4,11), (5,8), (5,9),
    (5,12), (5,13), (6,2), (7,2), (8,1), (8,3), (8,4), (8,14), (8,15), (9,1), (9,3), (9,4), (9,15), (9,16),
    (10,2), (11,2), (12,1), (12,3), (12,4), (12,14), (12,15), (13,1), (13,3), (13,4), (13,15), (13,16), (14,6), (14,10),
    (15,6), (15,7), (15,10), (15,11), (16,7), (16,11)]⟩]
  siteHops := [(2,3), (3,5), (6,8), (7,9), (10,12), (11,13), (2,3), (3,5), (6,8), (7,9), (10,12), (11,13)]
  occupations := [
    ⟨.both, 0, [(1,2), (2,0), (3,2), (4,2), (5,4), (6,1), (7,1), (8,3), (9,3), (10,1), (11,1), (12,3), (13,3), (14,2),
    (15,2), (16,2)]⟩,
    ⟨.both, 1, [(1,2), (2,0), (3,2), (4,2), (5,4), (6,1), (7,1), (8,3), (9,3), (10,1), (11,1), (12,3), (13,3), (14,2),
    (15,2), (16,2)]⟩]

/-- Class `SymmetrySPSU2LR` with 2 channel(s). -/
def ham_SPSU2LR_2ch : Ham where
  builtin := ⟨"SPSU2LR", 2, fields_SPSU2LR, tab_SPSU2LR_2ch⟩
  blocks := fblocks_SPSU2LR_2ch
  invarF := none
  guard := .plain
  variants := [ham_SPSU2LR_2ch_plain]

/-- `recalc_irreduc` in `nrg-recalc-SPSU2T.hpp`: `spsu2t-spinup+1.dat`, `spsu2t-spinup0.dat`, `spsu2t-spinup-1.dat`, `spsu2t-spindo+1.dat`, `spsu2t-spindo0.dat`, `spsu2t-spindo-1.dat`. -/
def fblocks_SPSU2T_3ch : List FBlock := [
  ⟨[1, 1], 0, 0, [(2,20), (3,26), (4,32), (5,18), (6,19), (7,20), (10,24), (10,39), (11,25), (11,40), (12,26), (12,41), (13,42), (15,1),
    (21,2), (21,7), (21,47), (22,8), (22,48), (23,9), (24,50), (25,51), (27,3), (27,12), (27,56), (28,13), (28,57), (29,14),
    (30,59), (31,60), (33,6), (33,46), (34,7), (34,47), (35,8), (35,48), (36,9), (38,49), (39,50), (40,51), (43,16), (44,17),
    (46,19), (47,20), (52,22), (52,35), (52,62), (53,23), (53,36), (54,37), (55,25), (55,40), (55,63), (56,26), (56,41), (57,42),
    (58,64), (61,45), (62,48), (63,51)]⟩,
  ⟨[1, 0], 0, 0, [(2,19), (3,25), (4,31), (6,18), (7,19), (8,20), (10,38), (11,24), (11,39), (12,25), (12,40), (13,26), (13,41), (14,42),
    (16,1), (21,6), (21,46), (22,2), (22,7), (22,47), (23,8), (23,48), (24,49), (25,50), (26,51), (27,11), (27,55), (28,3),
    (28,12), (28,56), (29,13), (29,57), (30,58), (31,59), (32,60), (33,5), (34,6), (34,46), (35,7), (35,47), (36,8), (36,48),
    (37,9), (39,49), (40,50), (41,51), (43,15), (44,16), (45,17), (46,18), (47,19), (48,20), (52,21), (52,34), (53,22), (53,35),
    (53,62), (54,23), (54,36), (55,24), (55,39), (56,25), (56,40), (56,63), (57,26), (57,41), (59,64), (61,44), (62,47), (63,50)]⟩,
  ⟨[1, -1], 0, 0, [(2,18), (3,24), (4,30), (7,18), (8,19), (9,20), (11,38), (12,24), (12,39), (13,25), (13,40), (14,26), (14,41), (17,1),
    (21,5), (22,6), (22,46), (23,2), (23,7), (23,47), (25,49), (26,50), (27,10), (28,11), (28,55), (29,3), (29,12), (29,56),
    (31,58), (32,59), (34,5), (35,6), (35,46), (36,7), (36,47), (37,8), (37,48), (40,49), (41,50), (42,51), (44,15), (45,16),
    (47,18), (48,19), (52,33), (53,21), (53,34), (54,22), (54,35), (54,62), (55,38), (56,24), (56,39), (57,25), (57,40), (57,63),
    (60,64), (61,43), (62,46), (63,49)]⟩,
  ⟨[-1, 1], 0, 0, [(2,17), (3,23), (4,29), (5,15), (6,16), (7,17), (10,21), (10,34), (11,22), (11,35), (12,23), (12,36), (13,37), (18,1),
    (21,44), (22,45), (24,2), (24,7), (24,47), (25,8), (25,48), (26,9), (27,53), (28,54), (30,3), (30,12), (30,56), (31,13),
    (31,57), (32,14), (33,43), (34,44), (35,45), (38,6), (38,46), (39,7), (39,47), (40,8), (40,48), (41,9), (46,16), (47,17),
    (49,19), (50,20), (52,61), (55,22), (55,35), (55,62), (56,23), (56,36), (57,37), (58,25), (58,40), (58,63), (59,26), (59,41),
    (60,42), (62,45), (63,48), (64,51)]⟩,
  ⟨[-1, 0], 0, 0, [(2,16), (3,22), (4,28), (6,15), (7,16), (8,17), (10,33), (11,21), (11,34), (12,22), (12,35), (13,23), (13,36), (14,37),
    (19,1), (21,43), (22,44), (23,45), (24,6), (24,46), (25,2), (25,7), (25,47), (26,8), (26,48), (27,52), (28,53), (29,54),
    (30,11), (30,55), (31,3), (31,12), (31,56), (32,13), (32,57), (34,43), (35,44), (36,45), (38,5), (39,6), (39,46), (40,7),
    (40,47), (41,8), (41,48), (42,9), (46,15), (47,16), (48,17), (49,18), (50,19), (51,20), (53,61), (55,21), (55,34), (56,22),
    (56,35), (56,62), (57,23), (57,36), (58,24), (58,39), (59,25), (59,40), (59,63), (60,26), (60,41), (62,44), (63,47), (64,50)]⟩,
  ⟨[-1, -1], 0, 0, [(2,15), (3,21), (4,27), (7,15), (8,16), (9,17), (11,33), (12,21), (12,34), (13,22), (13,35), (14,23), (14,36), (20,1),
    (22,43), (23,44), (24,5), (25,6), (25,46), (26,2), (26,7), (26,47), (28,52), (29,53), (30,10), (31,11), (31,55), (32,3),
    (32,12), (32,56), (35,43), (36,44), (37,45), (39,5), (40,6), (40,46), (41,7), (41,47), (42,8), (42,48), (47,15), (48,16),
    (50,18), (51,19), (54,61), (55,33), (56,21), (56,34), (57,22), (57,35), (57,62), (58,38), (59,24), (59,39), (60,25), (60,40),
    (60,63), (62,43), (63,46), (64,49)]⟩]

/-- `make_matrix` in `sym-SPSU2T-impl.hpp`: `spsu2t/spsu2t-offdiag.dat`, `spsu2t/spsu2t-diag.dat`, `spsu2t/spsu2t-isospinx.dat`, `spsu2t/spsu2t-anomalous.dat`. -/
def ham_SPSU2T_3ch_plain : HamTable where
  variant := .plain
  hops := [
    ⟨.offdiag, 0, 0, [(1,15), (1,16), (1,17), (1,18), (1,19), (1,20), (2,21), (2,22), (2,23), (2,24), (2,25), (2,26), (3,27), (3,28),
    (3,29), (3,30), (3,31), (3,32), (5,21), (5,24), (5,33), (5,34), (5,38), (5,39), (6,21), (6,22), (6,24), (6,25),
    (6,33), (6,34), (6,35), (6,38), (6,39), (6,40), (7,21), (7,22), (7,23), (7,24), (7,25), (7,26), (7,34), (7,35),
    (7,36), (7,39), (7,40), (7,41), (8,22), (8,23), (8,25), (8,26), (8,35), (8,36), (8,37), (8,40), (8,41), (8,42),
    (9,23), (9,26), (9,36), (9,37), (9,41), (9,42), (10,27), (10,30), (11,27), (11,28), (11,30), (11,31), (12,27), (12,28),
    (12,29), (12,30), (12,31), (12,32), (13,28), (13,29), (13,31), (13,32), (14,29), (14,32), (15,2), (15,5), (15,6), (15,7),
    (15,43), (15,44), (15,46), (15,47), (16,2), (16,6), (16,7), (16,8), (16,43), (16,44), (16,45), (16,46), (16,47), (16,48),
    (17,2), (17,7), (17,8), (17,9), (17,44), (17,45), (17,47), (17,48), (18,2), (18,5), (18,6), (18,7), (18,46), (18,47),
    (18,49), (18,50), (19,2), (19,6), (19,7), (19,8), (19,46), (19,47), (19,48), (19,49), (19,50), (19,51), (20,2), (20,7),
    (20,8), (20,9), (20,47), (20,48), (20,50), (20,51), (21,3), (21,10), (21,11), (21,12), (21,52), (21,53), (21,55), (21,56),
    (22,3), (22,11), (22,12), (22,13), (22,52), (22,53), (22,54), (22,55), (22,56), (22,57), (23,3), (23,12), (23,13), (23,14),
    (23,53), (23,54), (23,56), (23,57), (24,3), (24,10), (24,11), (24,12), (24,55), (24,56), (24,58), (24,59), (25,3), (25,11),
    (25,12), (25,13), (25,55), (25,56), (25,57), (25,58), (25,59), (25,60), (26,3), (26,12), (26,13), (26,14), (26,56), (26,57),
    (26,59), (26,60), (27,4), (28,4), (29,4), (30,4), (31,4), (32,4), (33,10), (33,11), (33,52), (33,55), (34,10), (34,11),
    (34,12), (34,52), (34,53), (34,55), (34,56), (35,11), (35,12), (35,13), (35,52), (35,53), (35,54), (35,55), (35,56), (35,57),
    (36,12), (36,13), (36,14), (36,53), (36,54), (36,56), (36,57), (37,13), (37,14), (37,54), (37,57), (38,10), (38,11), (38,55),
    (38,58), (39,10), (39,11), (39,12), (39,55), (39,56), (39,58), (39,59), (40,11), (40,12), (40,13), (40,55), (40,56), (40,57),
    (40,58), (40,59), (40,60), (41,12), (41,13), (41,14), (41,56), (41,57), (41,59), (41,60), (42,13), (42,14), (42,57), (42,60),
    (43,21), (43,22), (43,33), (43,34), (43,35), (43,61), (43,62), (44,21), (44,22), (44,23), (44,34), (44,35), (44,36), (44,61),
    (44,62), (45,22), (45,23), (45,35), (45,36), (45,37), (45,61), (45,62), (46,21), (46,22), (46,24), (46,25), (46,33), (46,34),
    (46,35), (46,38), (46,39), (46,40), (46,62), (46,63), (47,21), (47,22), (47,23), (47,24), (47,25), (47,26), (47,34), (47,35),
    (47,36), (47,39), (47,40), (47,41), (47,62), (47,63), (48,22), (48,23), (48,25), (48,26), (48,35), (48,36), (48,37), (48,40),
    (48,41), (48,42), (48,62), (48,63), (49,24), (49,25), (49,38), (49,39), (49,40), (49,63), (49,64), (50,24), (50,25), (50,26),
    (50,39), (50,40), (50,41), (50,63), (50,64), (51,25), (51,26), (51,40), (51,41), (51,42), (51,63), (51,64), (52,27), (52,28),
    (53,27), (53,28), (53,29), (54,28), (54,29), (55,27), (55,28), (55,30), (55,31), (56,27), (56,28), (56,29), (56,30), (56,31),
    (56,32), (57,28), (57,29), (57,31), (57,32), (58,30), (58,31), (59,30), (59,31), (59,32), (60,31), (60,32), (61,52), (61,53),
    (61,54), (62,52), (62,53), (62,54), (62,55), (62,56), (62,57), (63,55), (63,56), (63,57), (63,58), (63,59), (63,60), (64,58),
    (64,59), (64,60)]⟩,
    ⟨.anomalous, 0, 0, [(2,16), (2,17), (2,19), (2,20), (3,22), (3,23), (3,25), (3,26), (4,28), (4,29), (4,31), (4,32), (6,15), (6,16),
    (6,18), (6,19), (7,15), (7,16), (7,17), (7,18), (7,19), (7,20), (8,16), (8,17), (8,19), (8,20), (9,17), (9,20),
    (10,33), (10,34), (10,38), (10,39), (11,21), (11,22), (11,24), (11,25), (11,33), (11,34), (11,35), (11,38), (11,39), (11,40),
    (12,21), (12,22), (12,23), (12,24), (12,25), (12,26), (12,34), (12,35), (12,36), (12,39), (12,40), (12,41), (13,22), (13,23),
    (13,25), (13,26), (13,35), (13,36), (13,37), (13,40), (13,41), (13,42), (14,23), (14,26), (14,36), (14,37), (14,41), (14,42),
    (21,43), (21,44), (21,46), (21,47), (22,43), (22,44), (22,45), (22,46), (22,47), (22,48), (23,44), (23,45), (23,47), (23,48),
    (24,46), (24,47), (24,49), (24,50), (25,46), (25,47), (25,48), (25,49), (25,50), (25,51), (26,47), (26,48), (26,50), (26,51),
    (27,52), (27,53), (27,55), (27,56), (28,52), (28,53), (28,54), (28,55), (28,56), (28,57), (29,53), (29,54), (29,56), (29,57),
    (30,55), (30,56), (30,58), (30,59), (31,55), (31,56), (31,57), (31,58), (31,59), (31,60), (32,56), (32,57), (32,59), (32,60),
    (34,43), (34,44), (34,46), (34,47), (35,43), (35,44), (35,45), (35,46), (35,47), (35,48), (36,44), (36,45), (36,47), (36,48),
    (37,45), (37,48), (39,46), (39,47), (39,49), (39,50), (40,46), (40,47), (40,48), (40,49), (40,50), (40,51), (41,47), (41,48),
    (41,50), (41,51), (42,48), (42,51), (53,61), (53,62), (54,61), (54,62), (56,62), (56,63), (57,62), (57,63), (59,63), (59,64),
    (60,63), (60,64)]⟩]
  siteHops := [(1,2), (1,7), (2,3), (2,12), (3,4), (3,7), (4,12), (5,10), (6,11), (7,12), (8,13), (9,14), (15,21), (15,34),
    (16,22), (16,35), (17,23), (17,36), (18,24), (18,39), (19,25), (19,40), (20,26), (20,41), (21,27), (22,28), (23,29), (24,30),
    (25,31), (26,32), (27,34), (28,35), (29,36), (30,39), (31,40), (32,41), (44,53), (45,54), (47,56), (48,57), (50,59), (51,60)]
  occupations := [
    ⟨.both, 0, [(1,0), (2,4), (3,8), (4,12), (5,4), (6,4), (7,4), (8,4), (9,4), (10,8), (11,8), (12,8), (13,8), (14,8),
    (15,2), (16,2), (17,2), (18,2), (19,2), (20,2), (21,6), (22,6), (23,6), (24,6), (25,6), (26,6), (27,10), (28,10),
    (29,10), (30,10), (31,10), (32,10), (33,6), (34,6), (35,6), (36,6), (37,6), (38,6), (39,6), (40,6), (41,6), (42,6),
    (43,4), (44,4), (45,4), (46,4), (47,4), (48,4), (49,4), (50,4), (51,4), (52,8), (53,8), (54,8), (55,8), (56,8),
    (57,8), (58,8), (59,8), (60,8), (61,6), (62,6), (63,6), (64,6)]⟩]

/-- Class `SymmetrySPSU2T` with 3 channel(s). -/
def ham_SPSU2T_3ch : Ham where
  builtin := ⟨"SPSU2T", 3, fields_SPSU2T, tab_SPSU2T_3ch⟩
  blocks := fblocks_SPSU2T_3ch
  invarF := some [2, 1]
  guard := .spsu2t
  variants := [ham_SPSU2T_3ch_plain]

/-- `recalc_irreduc` in `nrg-recalc-SPU1.hpp`: `spu1-1ch-spinupa.dat`, `spu1-1ch-spindowna.dat`. -/
def fblocks_SPU1_1ch : List FBlock := [
  ⟨[1], 0, 0, [(3,1), (4,2)]⟩,
  ⟨[-1], 0, 0, [(1,2), (3,4)]⟩]

/-- `make_matrix_nonpolarized` in `sym-SPU1-impl.hpp`: `spu1/spu1-1ch-offdiag.dat`, `spu1/spu1-1ch-anomalous.dat`, `spu1/spu1-1ch-diag.dat`, `spu1/spu1-1ch-isospinx.dat`. -/
def ham_SPU1_1ch_nonpolarized : HamTable where
  variant := .nonpolarized
  hops := [
    ⟨.offdiag, 0, 0, [(1,3), (2,1), (2,4), (4,3)]⟩,
    ⟨.anomalous, 0, 0, [(1,2), (3,1), (3,4), (4,2)]⟩]
  siteHops := [(2,3)]
  occupations := [
    ⟨.both, 0, [(1,2), (2,0), (3,4), (4,2)]⟩]

/-- `make_matrix_polarized` in `sym-SPU1-impl.hpp`: `spu1/spu1-1ch-offdiag-UP.dat`, `spu1/spu1-1ch-offdiag-DOWN.dat`, `spu1/spu1-1ch-anomalous.dat`, `spu1/spu1-1ch-diag-UP.dat`, `spu1/spu1-1ch-diag-DOWN.dat`, `spu1/spu1-1ch-isospinx.dat`. -/
def ham_SPU1_1ch_polarized : HamTable where
  variant := .polarized
  hops := [
    ⟨.up, 0, 0, [(1,3), (2,4)]⟩,
    ⟨.down, 0, 0, [(2,1), (4,3)]⟩,
    ⟨.anomalous, 0, 0, [(1,2), (3,1), (3,4), (4,2)]⟩]
  siteHops := [(2,3)]
  occupations := [
    ⟨.up, 0, [(1,0), (2,0), (3,2), (4,2)]⟩,
    ⟨.down, 0, [(1,2), (2,0), (3,2), (4,0)]⟩]

/-- Class `SymmetrySPU1` with 1 channel(s). -/
def ham_SPU1_1ch : Ham where
  builtin := ⟨"SPU1", 1, fields_SPU1, tab_SPU1_1ch⟩
  blocks := fblocks_SPU1_1ch
  invarF := none
  guard := .plain
  variants := [ham_SPU1_1ch_nonpolarized, ham_SPU1_1ch_polarized]

/-- `recalc_irreduc` in `nrg-recalc-SPU1.hpp`: `spu1-2ch-spinupa.dat`, `spu1-2ch-spinupb.dat`, `spu1-2ch-spindowna.dat`, `spu1-2ch-spindownb.dat`. -/
def fblocks_SPU1_2ch : List FBlock := [
  ⟨[1], 0, 0, [(5,1), (9,2), (10,3), (11,4), (13,6), (14,7), (15,8), (16,12)]⟩,
  ⟨[1], 1, 0, [(4,1), (7,2), (8,3), (11,5), (12,6), (14,9), (15,10), (16,13)]⟩,
  ⟨[-1], 0, 0, [(1,2), (3,6), (4,7), (5,9), (8,12), (10,13), (11,14), (15,16)]⟩,
  ⟨[-1], 1, 0, [(1,3), (2,6), (4,8), (5,10), (7,12), (9,13), (11,15), (14,16)]⟩]

/-- `make_matrix_nonpolarized` in `sym-SPU1-impl.hpp`: `spu1/spu1-2ch-diag.dat`, `spu1/spu1-2ch-offdiag.dat`, `spu1/spu1-2ch-anomalous.dat`, `spu1/spu1-2ch-isospinx.dat`. -/
def ham_SPU1_2ch_nonpolarized : HamTable where
  variant := .nonpolarized
  hops := [
    ⟨.offdiag, 0, 0, [(1,5), (2,1), (2,9), (3,10), (4,11), (6,3), (6,13), (7,4), (7,14), (8,15), (9,5), (12,8), (12,16), (13,10),
    (14,11), (16,15)]⟩,
    ⟨.offdiag, 1, 0, [(1,4), (2,7), (3,1), (3,8), (5,11), (6,2), (6,12), (8,4), (9,14), (10,5), (10,15), (12,7), (13,9), (13,16),
    (15,11), (16,14)]⟩,
    ⟨.anomalous, 0, 0, [(1,2), (3,6), (4,7), (5,1), (5,9), (8,12), (9,2), (10,3), (10,13), (11,4), (11,14), (13,6), (14,7), (15,8),
    (15,16), (16,12)]⟩,
    ⟨.anomalous, 1, 0, [(1,3), (2,6), (4,1), (4,8), (5,10), (7,2), (7,12), (8,3), (9,13), (11,5), (11,15), (12,6), (14,9), (14,16),
    (15,10), (16,13)]⟩]
  siteHops := [(2,5), (6,10), (7,11), (12,15), (3,4), (6,7), (10,11), (13,14)]
  occupations := [
    ⟨.both, 0, [(1,2), (2,0), (3,2), (4,2), (5,4), (6,0), (7,0), (8,2), (9,2), (10,4), (11,4), (12,0), (13,2), (14,2),
    (15,4), (16,2)]⟩,
    ⟨.both, 1, [(1,2), (2,2), (3,0), (4,4), (5,2), (6,0), (7,4), (8,2), (9,2), (10,0), (11,4), (12,2), (13,0), (14,4),
    (15,2), (16,2)]⟩]

/-- `make_matrix_polarized` in `sym-SPU1-impl.hpp`: `spu1/spu1-2ch-diag-UP.dat`, `spu1/spu1-2ch-diag-DOWN.dat`, `spu1/spu1-2ch-offdiag-UP.dat`, `spu1/spu1-2ch-offdiag-DOWN.dat`, `spu1/spu1-2ch-anomalous.dat`, `spu1/spu1-2ch-isospinx.dat`. -/
def ham_SPU1_2ch_polarized : HamTable where
  variant := .polarized
  hops := [
    ⟨.up, 0, 0, [(1,5), (2,9), (3,10), (4,11), (6,13), (7,14), (8,15), (12,16)]⟩,
    ⟨.up, 1, 0, [(1,4), (2,7), (3,8), (5,11), (6,12), (9,14), (10,15), (13,16)]⟩,
    ⟨.down, 0, 0, [(2,1), (6,3), (7,4), (9,5), (12,8), (13,10), (14,11), (16,15)]⟩,
    ⟨.down, 1, 0, [(3,1), (6,2), (8,4), (10,5), (12,7), (13,9), (15,11), (16,14)]⟩,
    ⟨.anomalous, 0, 0, [(1,2), (3,6), (4,7), (5,1), (5,9), (8,12), (9,2), (10,3), (10,13), (11,4), (11,14), (13,6), (14,7), (15,8),
    (15,16), (16,12)]⟩,
    ⟨.anomalous, 1, 0, [(1,3), (2,6), (4,1), (4,8), (5,10), (7,2), (7,12), (8,3), (9,13), (11,5), (11,15), (12,6), (14,9), (14,16),
    (15,10), (16,13)]⟩]
  siteHops := [(2,5), (6,10), (7,11), (12,15), (3,4), (6,7), (10,11), (13,14)]
  occupations := [
    ⟨.up, 0, [(1,0), (2,0), (3,0), (4,0), (5,2), (6,0), (7,0), (8,0), (9,2), (10,2), (11,2), (12,0), (13,2), (14,2),
    (15,2), (16,2)]⟩,
    ⟨.up, 1, [(1,0), (2,0), (3,0), (4,2), (5,0), (6,0), (7,2), (8,2), (9,0), (10,0), (11,2), (12,2), (13,0), (14,2),
    (15,2), (16,2)]⟩,
    ⟨.down, 0, [(1,2), (2,0), (3,2), (4,2), (5,2), (6,0), (7,0), (8,2), (9,0), (10,2), (11,2), (12,0), (13,0), (14,0),
    (15,2), (16,0)]⟩,
    ⟨.down, 1, [(1,2), (2,2), (3,0), (4,2), (5,2), (6,0), (7,2), (8,0), (9,2), (10,0), (11,2), (12,0), (13,0), (14,2),
    (15,0), (16,0)]⟩]

/-- Class `SymmetrySPU1` with 2 channel(s). -/
def ham_SPU1_2ch : Ham where
  builtin := ⟨"SPU1", 2, fields_SPU1, tab_SPU1_2ch⟩
  blocks := fblocks_SPU1_2ch
  invarF := none
  guard := .plain
  variants := [ham_SPU1_2ch_nonpolarized, ham_SPU1_2ch_polarized]

/-- `recalc_irreduc` in `nrg-recalc-SPU1LR.hpp`: `spu1lr-1ch-spinupa.dat`, `spu1lr-1ch-spindowna.dat`. -/
def fblocks_SPU1LR_1ch : List FBlock := [
  ⟨[1, 1], 0, 0, [(3,1), (4,2)]⟩,
  ⟨[-1, 1], 0, 0, [(1,2), (3,4)]⟩]

/-- `make_matrix` in `sym-SPU1LR-impl.hpp`: `spu1lr/spu1lr-1ch-offdiag.dat`, `spu1lr/spu1lr-1ch-anomalous.dat`, `spu1lr/spu1lr-1ch-diag.dat`, `spu1lr/spu1lr-1ch-isospinx.dat`. -/
def ham_SPU1LR_1ch_plain : HamTable where
  variant := .plain
  hops := [
    ⟨.offdiag, 0, 0, [(1,3), (2,1), (2,4), (4,3)]⟩,
    ⟨.anomalous, 0, 0, [(1,2), (3,1), (3,4), (4,2)]⟩]
  siteHops := [(2,3)]
  occupations := [
    ⟨.both, 0, [(1,2), (2,0), (3,4), (4,2)]⟩]

/-- Class `SymmetrySPU1LR` with 1 channel(s). -/
def ham_SPU1LR_1ch : Ham where
  builtin := ⟨"SPU1LR", 1, fields_SPU1LR, tab_SPU1LR_1ch⟩
  blocks := fblocks_SPU1LR_1ch
  invarF := none
  guard := .plain
  variants := [ham_SPU1LR_1ch_plain]

/-- `recalc_irreduc` in `nrg-recalc-SPU1LR.hpp`: `spu1lr-2ch-spinupa.dat`, `spu1lr-2ch-spinupb.dat`, `spu1lr-2ch-spindowna.dat`, `spu1lr-2ch-spindownb.dat`, `spu1lr-2ch-spinupdiffa.dat`, `spu1lr-2ch-spinupdiffb.dat`, `spu1lr-2ch-spindowndiffa.dat`, `spu1lr-2ch-spindowndiffb.dat`. -/
def fblocks_SPU1LR_2ch : List FBlock := [
  ⟨[1, 1], 0, 0, [(3,1), (6,2), (7,2), (9,4), (10,4), (11,5), (13,6), (13,7), (14,8), (15,9), (15,10), (16,12)]⟩,
  ⟨[1, 1], 1, 0, [(3,1), (6,2), (7,2), (9,4), (10,4), (11,5), (13,6), (13,7), (14,8), (15,9), (15,10), (16,12)]⟩,
  ⟨[-1, 1], 0, 0, [(1,2), (3,6), (3,7), (4,8), (5,9), (5,10), (6,12), (7,12), (9,14), (10,14), (11,15), (13,16)]⟩,
  ⟨[-1, 1], 1, 0, [(1,2), (3,6), (3,7), (4,8), (5,9), (5,10), (6,12), (7,12), (9,14), (10,14), (11,15), (13,16)]⟩,
  ⟨[1, -1], 0, 0, [(5,1), (6,4), (7,4), (9,2), (10,2), (11,3), (12,8), (13,9), (13,10), (15,6), (15,7), (16,14)]⟩,
  ⟨[1, -1], 1, 0, [(5,1), (6,4), (7,4), (9,2), (10,2), (11,3), (12,8), (13,9), (13,10), (15,6), (15,7), (16,14)]⟩,
  ⟨[-1, -1], 0, 0, [(1,4), (2,8), (3,9), (3,10), (5,6), (5,7), (6,14), (7,14), (9,12), (10,12), (11,13), (15,16)]⟩,
  ⟨[-1, -1], 1, 0, [(1,4), (2,8), (3,9), (3,10), (5,6), (5,7), (6,14), (7,14), (9,12), (10,12), (11,13), (15,16)]⟩]

/-- `make_matrix` in `sym-SPU1LR-impl.hpp`: `spu1lr/spu1lr-2ch-diag.dat`, `spu1lr/spu1lr-2ch-offdiag.dat`, `spu1lr/spu1lr-2ch-anomalous.dat`, `spu1lr/spu1lr-2ch-isospinx.dat`. -/
def ham_SPU1LR_2ch_plain : HamTable where
  variant := .plain
  hops := [
    ⟨.offdiag, 0, 0, [(1,3), (1,5), (2,1), (2,6), (2,7), (2,9), (2,10), (3,11), (4,1), (4,6), (4,7), (4,9), (4,10), (5,11),
    (6,3), (6,5), (6,13), (6,15), (7,3), (7,5), (7,13), (7,15), (8,2), (8,4), (8,12), (8,14), (9,3), (9,5),
    (9,13), (9,15), (10,3), (10,5), (10,13), (10,15), (12,6), (12,7), (12,9), (12,10), (12,16), (13,11), (14,6), (14,7),
    (14,9), (14,10), (14,16), (15,11), (16,13), (16,15)]⟩,
    ⟨.offdiag, 1, 0, [(1,3), (1,5), (2,1), (2,6), (2,7), (2,9), (2,10), (3,11), (4,1), (4,6), (4,7), (4,9), (4,10), (5,11),
    (6,3), (6,5), (6,13), (6,15), (7,3), (7,5), (7,13), (7,15), (8,2), (8,4), (8,12), (8,14), (9,3), (9,5),
    (9,13), (9,15), (10,3), (10,5), (10,13), (10,15), (12,6), (12,7), (12,9), (12,10), (12,16), (13,11), (14,6), (14,7),
    (14,9), (14,10), (14,16), (15,11), (16,13), (16,15)]⟩,
    ⟨.anomalous, 0, 0, [(1,2), (1,4), (2,8), (3,1), (3,6), (3,7), (3,9), (3,10), (4,8), (5,1), (5,6), (5,7), (5,9), (5,10),
    (6,2), (6,4), (6,12), (6,14), (7,2), (7,4), (7,12), (7,14), (9,2), (9,4), (9,12), (9,14), (10,2), (10,4),
    (10,12), (10,14), (11,3), (11,5), (11,13), (11,15), (12,8), (13,6), (13,7), (13,9), (13,10), (13,16), (14,8), (15,6),
    (15,7), (15,9), (15,10), (15,16), (16,12), (16,14)]⟩,
    ⟨.anomalous, 1, 0, [(1,2), (1,4), (2,8), (3,1), (3,6), (3,7), (3,9), (3,10), (4,8), (5,1), (5,6), (5,7), (5,9), (5,10),
    (6,2), (6,4), (6,12), (6,14), (7,2), (7,4), (7,12), (7,14), (9,2), (9,4), (9,12), (9,14), (10,2), (10,4),
    (10,12), (10,14), (11,3), (11,5), (11,13), (11,15), (12,8), (13,6), (13,7), (13,9), (13,10), (13,16), (14,8), (15,6),
    (15,7), (15,9), (15,10), (15,16), (16,12), (16,14)]⟩]
  siteHops := [(2,3), (4,5), (8,9), (9,11), (12,13), (14,15), (2,3), (4,5), (8,9), (9,11), (12,13), (14,15)]
  occupations := [
    ⟨.both, 0, [(1,2), (2,1), (3,3), (4,1), (5,3), (6,2), (7,2), (8,0), (9,2), (10,2), (11,4), (12,1), (13,3), (14,1),
    (15,3), (16,2)]⟩,
    ⟨.both, 1, [(1,2), (2,1), (3,3), (4,1), (5,3), (6,2), (7,2), (8,0), (9,2), (10,2), (11,4), (12,1), (13,3), (14,1),
    (15,3), (16,2)]⟩]

/-- Class `SymmetrySPU1LR` with 2 channel(s). -/
def ham_SPU1LR_2ch : Ham where
  builtin := ⟨"SPU1LR", 2, fields_SPU1LR, tab_SPU1LR_2ch⟩
  blocks := fblocks_SPU1LR_2ch
  invarF := none
  guard := .plain
  variants := [ham_SPU1LR_2ch_plain]

/-- `recalc_irreduc` in `nrg-recalc-SU2.hpp`: `su2-1ch-type1-isoup-a.dat`, `su2-1ch-type2-isoup-a.dat`, `su2-1ch-type1-isodown-a.dat`, `su2-1ch-type2-isodown-a.dat`. -/
def fblocks_SU2_1ch : List FBlock := [
  ⟨[1], 0, 0, [(1,3), (4,2)]⟩,
  ⟨[1], 0, 1, [(1,4), (3,2)]⟩,
  ⟨[-1], 0, 0, [(2,3), (4,1)]⟩,
  ⟨[-1], 0, 1, [(2,4), (3,1)]⟩]

/-- `make_matrix` in `sym-SU2-impl.hpp`: `su2/su2-1ch-offdiag-1.dat`, `su2/su2-1ch-offdiag-2.dat`. -/
def ham_SU2_1ch_plain : HamTable where
  variant := .plain
  hops := [
    ⟨.type1, 0, 0, [(1,4), (2,4)]⟩,
    ⟨.type2, 0, 1, [(1,3), (2,3)]⟩]
  siteHops := []
  occupations := [
]

/-- Class `SymmetrySU2` with 1 channel(s). -/
def ham_SU2_1ch : Ham where
  builtin := ⟨"SU2", 1, fields_SU2, tab_SU2_1ch⟩
  blocks := fblocks_SU2_1ch
  invarF := none
  guard := .plain
  variants := [ham_SU2_1ch_plain]

/-- `recalc_irreduc` in `nrg-recalc-SU2.hpp`: `su2-2ch-type1-isoup-a.dat`, `su2-2ch-type1-isoup-b.dat`, `su2-2ch-type2-isoup-a.dat`, `su2-2ch-type2-isoup-b.dat`, `su2-2ch-type1-isodown-a.dat`, `su2-2ch-type1-isodown-b.dat`, `su2-2ch-type2-isodown-a.dat`, `su2-2ch-type2-isodown-b.dat`. -/
def fblocks_SU2_2ch : List FBlock := [
  ⟨[1], 0, 0, [(1,4), (2,5), (6,2), (6,12), (7,3), (8,13), (10,14), (12,5), (15,9), (16,11)]⟩,
  ⟨[1], 1, 0, [(1,8), (2,9), (4,13), (6,15), (10,2), (10,12), (11,3), (12,9), (14,5), (16,7)]⟩,
  ⟨[1], 0, 1, [(1,6), (2,7), (4,2), (4,12), (5,3), (8,15), (10,16), (12,7), (13,9), (14,11)]⟩,
  ⟨[1], 1, 1, [(1,10), (2,11), (4,14), (6,16), (8,2), (8,12), (9,3), (12,11), (13,5), (15,7)]⟩,
  ⟨[-1], 0, 0, [(2,4), (3,5), (6,1), (7,2), (7,12), (9,13), (11,14), (12,4), (15,8), (16,10)]⟩,
  ⟨[-1], 1, 0, [(2,8), (3,9), (5,13), (7,15), (10,1), (11,2), (11,12), (12,8), (14,4), (16,6)]⟩,
  ⟨[-1], 0, 1, [(2,6), (3,7), (4,1), (5,2), (5,12), (9,15), (11,16), (12,6), (13,8), (14,10)]⟩,
  ⟨[-1], 1, 1, [(2,10), (3,11), (5,14), (7,16), (8,1), (9,2), (9,12), (12,10), (13,4), (15,6)]⟩]

/-- `make_matrix` in `sym-SU2-impl.hpp`: `su2/su2-2ch-offdiag-1.dat`, `su2/su2-2ch-offdiag-2.dat`. -/
def ham_SU2_2ch_plain : HamTable where
  variant := .plain
  hops := [
    ⟨.type1, 0, 0, [(1,6), (2,6), (2,7), (3,7), (4,12), (5,12), (8,15), (9,15), (10,16), (11,16)]⟩,
    ⟨.type1, 1, 0, [(1,10), (2,10), (2,11), (3,11), (4,14), (5,14), (6,16), (7,16), (8,12), (9,12)]⟩,
    ⟨.type2, 0, 1, [(1,4), (2,4), (2,5), (3,5), (6,12), (7,12), (8,13), (9,13), (10,14), (11,14)]⟩,
    ⟨.type2, 1, 1, [(1,8), (2,8), (2,9), (3,9), (4,13), (5,13), (6,15), (7,15), (10,12), (11,12)]⟩]
  siteHops := []
  occupations := [
]

/-- Class `SymmetrySU2` with 2 channel(s). -/
def ham_SU2_2ch : Ham where
  builtin := ⟨"SU2", 2, fields_SU2, tab_SU2_2ch⟩
  blocks := fblocks_SU2_2ch
  invarF := none
  guard := .plain
  variants := [ham_SU2_2ch_plain]

/-- `recalc_irreduc` in `nrg-recalc-U1.hpp`: `u1-1ch-a-DO.dat`, `u1-1ch-a-UP.dat`. -/
def fblocks_U1_1ch : List FBlock := [
  ⟨[1], 0, 1, [(2,1), (4,3)]⟩,
  ⟨[1], 0, 0, [(3,1), (4,2)]⟩]

/-- `make_matrix_polarized` in `sym-U1-impl.hpp`: `u1/u1-1ch-offdiag-UP.dat`, `u1/u1-1ch-offdiag-DO.dat`, `u1/u1-1ch-diag-UP.dat`, `u1/u1-1ch-diag-DOWN.dat`. -/
def ham_U1_1ch_polarized : HamTable where
  variant := .polarized
  hops := [
    ⟨.up, 0, 0, [(1,3), (2,4)]⟩,
    ⟨.down, 0, 1, [(1,2), (3,4)]⟩]
  siteHops := []
  occupations := [
    ⟨.up, 0, [(1,0), (2,0), (3,2), (4,2)]⟩,
    ⟨.down, 0, [(1,0), (2,2), (3,0), (4,2)]⟩]

/-- `make_matrix_pol2x2` in `sym-U1-impl.hpp`: `u1/u1-1ch-offdiag-UP.dat`, `u1/u1-1ch-offdiag-DO.dat`, `u1/u1-1ch-offdiag-UPDO.dat`, `u1/u1-1ch-offdiag-DOUP.dat`, `u1/u1-1ch-diag-UP.dat`, `u1/u1-1ch-diag-DOWN.dat`, `u1/u1-1ch-diag-DOUP.dat`. -/
def ham_U1_1ch_pol2x2 : HamTable where
  variant := .pol2x2
  hops := [
    ⟨.up, 0, 0, [(1,3), (2,4)]⟩,
    ⟨.down, 0, 1, [(1,2), (3,4)]⟩,
    ⟨.updo, 0, 0, [(1,2), (3,4)]⟩,
    ⟨.doup, 0, 1, [(1,3), (2,4)]⟩]
  siteHops := [(1,1), (2,2), (2,3), (3,3), (4,4)]
  occupations := [
    ⟨.up, 0, [(1,0), (2,0), (3,2), (4,2)]⟩,
    ⟨.down, 0, [(1,0), (2,2), (3,0), (4,2)]⟩]

/-- `make_matrix_nonpolarized` in `sym-U1-impl.hpp`: `u1/u1-1ch-offdiag-UP.dat`, `u1/u1-1ch-offdiag-DO.dat`, `u1/u1-1ch-diag.dat`. -/
def ham_U1_1ch_nonpolarized : HamTable where
  variant := .nonpolarized
  hops := [
    ⟨.up, 0, 1, [(1,3), (2,4)]⟩,
    ⟨.down, 0, 0, [(1,2), (3,4)]⟩]
  siteHops := []
  occupations := [
    ⟨.both, 0, [(1,0), (2,2), (3,2), (4,4)]⟩]

/-- Class `SymmetryU1` with 1 channel(s). -/
def ham_U1_1ch : Ham where
  builtin := ⟨"U1", 1, fields_U1, tab_U1_1ch⟩
  blocks := fblocks_U1_1ch
  invarF := none
  guard := .plain
  variants := [ham_U1_1ch_polarized, ham_U1_1ch_pol2x2, ham_U1_1ch_nonpolarized]

/-- `recalc_irreduc` in `nrg-recalc-U1.hpp`: `u1-2ch-a-DO.dat`, `u1-2ch-b-DO.dat`, `u1-2ch-a-UP.dat`, `u1-2ch-b-UP.dat`. -/
def fblocks_U1_2ch : List FBlock := [
  ⟨[1], 0, 1, [(4,1), (7,2), (8,3), (11,5), (12,6), (14,9), (15,10), (16,13)]⟩,
  ⟨[1], 1, 1, [(2,1), (6,3), (7,4), (9,5), (12,8), (13,10), (14,11), (16,15)]⟩,
  ⟨[1], 0, 0, [(5,1), (9,2), (10,3), (11,4), (13,6), (14,7), (15,8), (16,12)]⟩,
  ⟨[1], 1, 0, [(3,1), (6,2), (8,4), (10,5), (12,7), (13,9), (15,11), (16,14)]⟩]

/-- `make_matrix_polarized` in `sym-U1-impl.hpp`: `u1/u1-2ch-offdiag-UP.dat`, `u1/u1-2ch-offdiag-DO.dat`, `u1/u1-2ch-diag-UP.dat`, `u1/u1-2ch-diag-DOWN.dat`. -/
def ham_U1_2ch_polarized : HamTable where
  variant := .polarized
  hops := [
    ⟨.up, 0, 0, [(1,5), (2,9), (3,10), (4,11), (6,13), (7,14), (8,15), (12,16)]⟩,
    ⟨.up, 1, 0, [(1,3), (2,6), (4,8), (5,10), (7,12), (9,13), (11,15), (14,16)]⟩,
    ⟨.down, 0, 1, [(1,4), (2,7), (3,8), (5,11), (6,12), (9,14), (10,15), (13,16)]⟩,
    ⟨.down, 1, 1, [(1,2), (3,6), (4,7), (5,9), (8,12), (10,13), (11,14), (15,16)]⟩]
  siteHops := []
  occupations := [
    ⟨.up, 0, [(1,0), (2,0), (3,0), (4,0), (5,2), (6,0), (7,0), (8,0), (9,2), (10,2), (11,2), (12,0), (13,2), (14,2),
    (15,2), (16,2)]⟩,
    ⟨.up, 1, [(1,0), (2,0), (3,2), (4,0), (5,0), (6,2), (7,0), (8,2), (9,0), (10,2), (11,0), (12,2), (13,2), (14,0),
    (15,2), (16,2)]⟩,
    ⟨.down, 0, [(1,0), (2,0), (3,0), (4,2), (5,0), (6,0), (7,2), (8,2), (9,0), (10,0), (11,2), (12,2), (13,0), (14,2),
    (15,2), (16,2)]⟩,
    ⟨.down, 1, [(1,0), (2,2), (3,0), (4,0), (5,0), (6,2), (7,2), (8,0), (9,2), (10,0), (11,0), (12,2), (13,2), (14,2),
    (15,0), (16,2)]⟩]

/-- `make_matrix_pol2x2` in `sym-U1-impl.hpp`: `u1/u1-2ch-offdiag-UP.dat`, `u1/u1-2ch-offdiag-DO.dat`, `u1/u1-2ch-offdiag-UPDO.dat`, `u1/u1-2ch-offdiag-DOUP.dat`, `u1/u1-2ch-diag-UP.dat`, `u1/u1-2ch-diag-DOWN.dat`, `u1/u1-2ch-diag-DOUP.dat`. -/
def ham_U1_2ch_pol2x2 : HamTable where
  variant := .pol2x2
  hops := [
    ⟨.up, 0, 0, [(1,5), (2,9), (3,10), (4,11), (6,13), (7,14), (8,15), (12,16)]⟩,
    ⟨.up, 1, 0, [(1,3), (2,6), (4,8), (5,10), (7,12), (9,13), (11,15), (14,16)]⟩,
    ⟨.down, 0, 1, [(1,4), (2,7), (3,8), (5,11), (6,12), (9,14), (10,15), (13,16)]⟩,
    ⟨.down, 1, 1, [(1,2), (3,6), (4,7), (5,9), (8,12), (10,13), (11,14), (15,16)]⟩,
    ⟨.updo, 0, 0, [(1,4), (2,7), (3,8), (5,11), (6,12), (9,14), (10,15), (13,16)]⟩,
    ⟨.updo, 1, 0, [(1,2), (3,6), (4,7), (5,9), (8,12), (10,13), (11,14), (15,16)]⟩,
    ⟨.doup, 0, 1, [(1,5), (2,9), (3,10), (4,11), (6,13), (7,14), (8,15), (12,16)]⟩,
    ⟨.doup, 1, 1, [(1,3), (2,6), (4,8), (5,10), (7,12), (9,13), (11,15), (14,16)]⟩]
  siteHops := [(1,1), (2,2), (3,3), (4,4), (4,5), (5,5), (6,6), (7,7), (7,9), (8,8), (8,10), (9,9), (10,10), (11,11),
    (12,12), (12,13), (13,13), (14,14), (15,15), (16,16), (1,1), (2,2), (2,3), (3,3), (4,4), (5,5), (6,6), (7,7),
    (7,8), (8,8), (9,9), (9,10), (10,10), (11,11), (12,12), (13,13), (14,14), (14,15), (15,15), (16,16)]
  occupations := [
    ⟨.up, 0, [(1,0), (2,0), (3,0), (4,0), (5,2), (6,0), (7,0), (8,0), (9,2), (10,2), (11,2), (12,0), (13,2), (14,2),
    (15,2), (16,2)]⟩,
    ⟨.up, 1, [(1,0), (2,0), (3,2), (4,0), (5,0), (6,2), (7,0), (8,2), (9,0), (10,2), (11,0), (12,2), (13,2), (14,0),
    (15,2), (16,2)]⟩,
    ⟨.down, 0, [(1,0), (2,0), (3,0), (4,2), (5,0), (6,0), (7,2), (8,2), (9,0), (10,0), (11,2), (12,2), (13,0), (14,2),
    (15,2), (16,2)]⟩,
    ⟨.down, 1, [(1,0), (2,2), (3,0), (4,0), (5,0), (6,2), (7,2), (8,0), (9,2), (10,0), (11,0), (12,2), (13,2), (14,2),
    (15,0), (16,2)]⟩]

/-- `make_matrix_nonpolarized` in `sym-U1-impl.hpp`: `u1/u1-2ch-offdiag-UP.dat`, `u1/u1-2ch-offdiag-DO.dat`, `u1/u1-2ch-diag.dat`. -/
def ham_U1_2ch_nonpolarized : HamTable where
  variant := .nonpolarized
  hops := [
    ⟨.up, 0, 1, [(1,5), (2,9), (3,10), (4,11), (6,13), (7,14), (8,15), (12,16)]⟩,
    ⟨.up, 1, 1, [(1,3), (2,6), (4,8), (5,10), (7,12), (9,13), (11,15), (14,16)]⟩,
    ⟨.down, 0, 0, [(1,4), (2,7), (3,8), (5,11), (6,12), (9,14), (10,15), (13,16)]⟩,
    ⟨.down, 1, 0, [(1,2), (3,6), (4,7), (5,9), (8,12), (10,13), (11,14), (15,16)]⟩]
  siteHops := []
  occupations := [
    ⟨.both, 0, [(1,0), (2,0), (3,0), (4,2), (5,2), (6,0), (7,2), (8,2), (9,2), (10,2), (11,4), (12,2), (13,2), (14,4),
    (15,4), (16,4)]⟩,
    ⟨.both, 1, [(1,0), (2,2), (3,2), (4,0), (5,0), (6,4), (7,2), (8,2), (9,2), (10,2), (11,0), (12,4), (13,4), (14,2),
    (15,2), (16,4)]⟩]

/-- Class `SymmetryU1` with 2 channel(s). -/
def ham_U1_2ch : Ham where
  builtin := ⟨"U1", 2, fields_U1, tab_U1_2ch⟩
  blocks := fblocks_U1_2ch
  invarF := none
  guard := .plain
  variants := [ham_U1_2ch_polarized, ham_U1_2ch_pol2x2, ham_U1_2ch_nonpolarized]

/-- `recalc_irreduc` in `nrg-recalc-U1.hpp`: `u1-3ch-a-DO.dat`, `u1-3ch-b-DO.dat`, `u1-3ch-c-DO.dat`, `u1-3ch-a-UP.dat`, `u1-3ch-b-UP.dat`, `u1-3ch-c-UP.dat`. -/
def fblocks_U1_3ch : List FBlock := [
  ⟨[1], 0, 1, [(6,1), (14,2), (15,3), (16,4), (17,5), (22,7), (27,8), (28,9), (29,10), (30,11), (31,12), (32,13), (39,18), (40,19),
    (41,20), (42,21), (44,23), (45,24), (46,25), (47,26), (52,33), (53,34), (54,35), (55,36), (56,37), (57,38), (58,43), (60,48),
    (61,49), (62,50), (63,51), (64,59)]⟩,
  ⟨[1], 1, 1, [(4,1), (9,2), (10,3), (13,5), (16,6), (20,7), (23,8), (25,11), (26,12), (28,14), (29,15), (32,17), (34,18), (35,19),
    (38,21), (41,22), (43,24), (44,27), (46,30), (47,31), (48,33), (50,36), (51,37), (53,39), (54,40), (57,42), (58,45), (59,49),
    (60,52), (62,55), (63,56), (64,61)]⟩,
  ⟨[1], 2, 1, [(2,1), (8,3), (9,4), (11,5), (14,6), (18,7), (23,10), (24,12), (25,13), (27,15), (28,16), (30,17), (33,19), (34,20),
    (36,21), (39,22), (43,26), (44,29), (45,31), (46,32), (48,35), (49,37), (50,38), (52,40), (53,41), (55,42), (58,47), (59,51),
    (60,54), (61,56), (62,57), (64,63)]⟩,
  ⟨[1], 0, 0, [(7,1), (18,2), (19,3), (20,4), (21,5), (22,6), (33,8), (34,9), (35,10), (36,11), (37,12), (38,13), (39,14), (40,15),
    (41,16), (42,17), (48,23), (49,24), (50,25), (51,26), (52,27), (53,28), (54,29), (55,30), (56,31), (57,32), (59,43), (60,44),
    (61,45), (62,46), (63,47), (64,58)]⟩,
  ⟨[1], 1, 0, [(5,1), (11,2), (12,3), (13,4), (17,6), (21,7), (24,8), (25,9), (26,10), (30,14), (31,15), (32,16), (36,18), (37,19),
    (38,20), (42,22), (43,23), (45,27), (46,28), (47,29), (49,33), (50,34), (51,35), (55,39), (56,40), (57,41), (58,44), (59,48),
    (61,52), (62,53), (63,54), (64,60)]⟩,
  ⟨[1], 2, 0, [(3,1), (8,2), (10,4), (12,5), (15,6), (19,7), (23,9), (24,11), (26,13), (27,14), (29,16), (31,17), (33,18), (35,20),
    (37,21), (40,22), (43,25), (44,28), (45,30), (47,32), (48,34), (49,36), (51,38), (52,39), (54,41), (56,42), (58,46), (59,50),
    (60,53), (61,55), (63,57), (64,62)]⟩]

/-- `make_matrix_polarized` in `sym-U1-impl.hpp`: `u1/u1-3ch-offdiag-UP.dat`, `u1/u1-3ch-offdiag-DO.dat`, `u1/u1-3ch-diag-UP.dat`, `u1/u1-3ch-diag-DOWN.dat`. -/
def ham_U1_3ch_polarized : HamTable where
  variant := .polarized
  hops := [
    ⟨.up, 0, 0, [(1,7), (2,18), (3,19), (4,20), (5,21), (6,22), (8,33), (9,34), (10,35), (11,36), (12,37), (13,38), (14,39), (15,40),
    (16,41), (17,42), (23,48), (24,49), (25,50), (26,51), (27,52), (28,53), (29,54), (30,55), (31,56), (32,57), (43,59), (44,60),
    (45,61), (46,62), (47,63), (58,64)]⟩,
    ⟨.up, 1, 0, [(1,5), (2,11), (3,12), (4,13), (6,17), (7,21), (8,24), (9,25), (10,26), (14,30), (15,31), (16,32), (18,36), (19,37),
    (20,38), (22,42), (23,43), (27,45), (28,46), (29,47), (33,49), (34,50), (35,51), (39,55), (40,56), (41,57), (44,58), (48,59),
    (52,61), (53,62), (54,63), (60,64)]⟩,
    ⟨.up, 2, 0, [(1,3), (2,8), (4,10), (5,12), (6,15), (7,19), (9,23), (11,24), (13,26), (14,27), (16,29), (17,31), (18,33), (20,35),
    (21,37), (22,40), (25,43), (28,44), (30,45), (32,47), (34,48), (36,49), (38,51), (39,52), (41,54), (42,56), (46,58), (50,59),
    (53,60), (55,61), (57,63), (62,64)]⟩,
    ⟨.down, 0, 1, [(1,6), (2,14), (3,15), (4,16), (5,17), (7,22), (8,27), (9,28), (10,29), (11,30), (12,31), (13,32), (18,39), (19,40),
    (20,41), (21,42), (23,44), (24,45), (25,46), (26,47), (33,52), (34,53), (35,54), (36,55), (37,56), (38,57), (43,58), (48,60),
    (49,61), (50,62), (51,63), (59,64)]⟩,
    ⟨.down, 1, 1, [(1,4), (2,9), (3,10), (5,13), (6,16), (7,20), (8,23), (11,25), (12,26), (14,28), (15,29), (17,32), (18,34), (19,35),
    (21,38), (22,41), (24,43), (27,44), (30,46), (31,47), (33,48), (36,50), (37,51), (39,53), (40,54), (42,57), (45,58), (49,59),
    (52,60), (55,62), (56,63), (61,64)]⟩,
    ⟨.down, 2, 1, [(1,2), (3,8), (4,9), (5,11), (6,14), (7,18), (10,23), (12,24), (13,25), (15,27), (16,28), (17,30), (19,33), (20,34),
    (21,36), (22,39), (26,43), (29,44), (31,45), (32,46), (35,48), (37,49), (38,50), (40,52), (41,53), (42,55), (47,58), (51,59),
    (54,60), (56,61), (57,62), (63,64)]⟩]
  siteHops := []
  occupations := [
    ⟨.up, 0, [(1,0), (2,0), (3,0), (4,0), (5,0), (6,0), (7,2), (8,0), (9,0), (10,0), (11,0), (12,0), (13,0), (14,0),
    (15,0), (16,0), (17,0), (18,2), (19,2), (20,2), (21,2), (22,2), (23,0), (24,0), (25,0), (26,0), (27,0), (28,0),
    (29,0), (30,0), (31,0), (32,0), (33,2), (34,2), (35,2), (36,2), (37,2), (38,2), (39,2), (40,2), (41,2), (42,2),
    (43,0), (44,0), (45,0), (46,0), (47,0), (48,2), (49,2), (50,2), (51,2), (52,2), (53,2), (54,2), (55,2), (56,2),
    (57,2), (58,0), (59,2), (60,2), (61,2), (62,2), (63,2), (64,2)]⟩,
    ⟨.up, 1, [(1,0), (2,0), (3,0), (4,0), (5,2), (6,0), (7,0), (8,0), (9,0), (10,0), (11,2), (12,2), (13,2), (14,0),
    (15,0), (16,0), (17,2), (18,0), (19,0), (20,0), (21,2), (22,0), (23,0), (24,2), (25,2), (26,2), (27,0), (28,0),
    (29,0), (30,2), (31,2), (32,2), (33,0), (34,0), (35,0), (36,2), (37,2), (38,2), (39,0), (40,0), (41,0), (42,2),
    (43,2), (44,0), (45,2), (46,2), (47,2), (48,0), (49,2), (50,2), (51,2), (52,0), (53,0), (54,0), (55,2), (56,2),
    (57,2), (58,2), (59,2), (60,0), (61,2), (62,2), (63,2), (64,2)]⟩,
    ⟨.up, 2, [(1,0), (2,0), (3,2), (4,0), (5,0), (6,0), (7,0), (8,2), (9,0), (10,2), (11,0), (12,2), (13,0), (14,0),
    (15,2), (16,0), (17,0), (18,0), (19,2), (20,0), (21,0), (22,0), (23,2), (24,2), (25,0), (26,2), (27,2), (28,0),
    (29,2), (30,0), (31,2), (32,0), (33,2), (34,0), (35,2), (36,0), (37,2), (38,0), (39,0), (40,2), (41,0), (42,0),
    (43,2), (44,2), (45,2), (46,0), (47,2), (48,2), (49,2), (50,0), (51,2), (52,2), (53,0), (54,2), (55,0), (56,2),
    (57,0), (58,2), (59,2), (60,2), (61,2), (62,0), (63,2), (64,2)]⟩,
    ⟨.down, 0, [(1,0), (2,0), (3,0), (4,0), (5,0), (6,2), (7,0), (8,0), (9,0), (10,0), (11,0), (12,0), (13,0), (14,2),
    (15,2), (16,2), (17,2), (18,0), (19,0), (20,0), (21,0), (22,2), (23,0), (24,0), (25,0), (26,0), (27,2), (28,2),
    (29,2), (30,2), (31,2), (32,2), (33,0), (34,0), (35,0), (36,0), (37,0), (38,0), (39,2), (40,2), (41,2), (42,2),
    (43,0), (44,2), (45,2), (46,2), (47,2), (48,0), (49,0), (50,0), (51,0), (52,2), (53,2), (54,2), (55,2), (56,2),
    (57,2), (58,2), (59,0), (60,2), (61,2), (62,2), (63,2), (64,2)]⟩,
    ⟨.down, 1, [(1,0), (2,0), (3,0), (4,2), (5,0), (6,0), (7,0), (8,0), (9,2), (10,2), (11,0), (12,0), (13,2), (14,0),
    (15,0), (16,2), (17,0), (18,0), (19,0), (20,2), (21,0), (22,0), (23,2), (24,0), (25,2), (26,2), (27,0), (28,2),
    (29,2), (30,0), (31,0), (32,2), (33,0), (34,2), (35,2), (36,0), (37,0), (38,2), (39,0), (40,0), (41,2), (42,0),
    (43,2), (44,2), (45,0), (46,2), (47,2), (48,2), (49,0), (50,2), (51,2), (52,0), (53,2), (54,2), (55,0), (56,0),
    (57,2), (58,2), (59,2), (60,2), (61,0), (62,2), (63,2), (64,2)]⟩,
    ⟨.down, 2, [(1,0), (2,2), (3,0), (4,0), (5,0), (6,0), (7,0), (8,2), (9,2), (10,0), (11,2), (12,0), (13,0), (14,2),
    (15,0), (16,0), (17,0), (18,2), (19,0), (20,0), (21,0), (22,0), (23,2), (24,2), (25,2), (26,0), (27,2), (28,2),
    (29,0), (30,2), (31,0), (32,0), (33,2), (34,2), (35,0), (36,2), (37,0), (38,0), (39,2), (40,0), (41,0), (42,0),
    (43,2), (44,2), (45,2), (46,2), (47,0), (48,2), (49,2), (50,2), (51,0), (52,2), (53,2), (54,0), (55,2), (56,0),
    (57,0), (58,2), (59,2), (60,2), (61,2), (62,2), (63,0), (64,2)]⟩]

/-- `make_matrix_pol2x2` in `sym-U1-impl.hpp`: `u1/u1-3ch-offdiag-UP.dat`, `u1/u1-3ch-offdiag-DO.dat`, `u1/u1-3ch-offdiag-UPDO.dat`, `u1/u1-3ch-offdiag-DOUP.dat`, `u1/u1-3ch-diag-UP.dat`, `u1/u1-3ch-diag-DOWN.dat`, `u1/u1-3ch-diag-DOUP.dat`. -/
def ham_U1_3ch_pol2x2 : HamTable where
  variant := .pol2x2
  hops := [
    ⟨.up, 0, 0, [(1,7), (2,18), (3,19), (4,20), (5,21), (6,22), (8,33), (9,34), (10,35), (11,36), (12,37), (13,38), (14,39), (15,40),
    (16,41), (17,42), (23,48), (24,49), (25,50), (26,51), (27,52), (28,53), (29,54), (30,55), (31,56), (32,57), (43,59), (44,60),
    (45,61), (46,62), (47,63), (58,64)]⟩,
    ⟨.up, 1, 0, [(1,5), (2,11), (3,12), (4,13), (6,17), (7,21), (8,24), (9,25), (10,26), (14,30), (15,31), (16,32), (18,36), (19,37),
    (20,38), (22,42), (23,43), (27,45), (28,46), (29,47), (33,49), (34,50), (35,51), (39,55), (40,56), (41,57), (44,58), (48,59),
    (52,61), (53,62), (54,63), (60,64)]⟩,
    ⟨.up, 2, 0, [(1,3), (2,8), (4,10), (5,12), (6,15), (7,19), (9,23), (11,24), (13,26), (14,27), (16,29), (17,31), (18,33), (20,35),
    (21,37), (22,40), (25,43), (28,44), (30,45), (32,47), (34,48), (36,49), (38,51), (39,52), (41,54), (42,56), (46,58), (50,59),
    (53,60), (55,61), (57,63), (62,64)]⟩,
    ⟨.down, 0, 1, [(1,6), (2,14), (3,15), (4,16), (5,17), (7,22), (8,27), (9,28), (10,29), (11,30), (12,31), (13,32), (18,39), (19,40),
    (20,41), (21,42), (23,44), (24,45), (25,46), (26,47), (33,52), (34,53), (35,54), (36,55), (37,56), (38,57), (43,58), (48,60),
    (49,61), (50,62), (51,63), (59,64)]⟩,
    ⟨.down, 1, 1, [(1,4), (2,9), (3,10), (5,13), (6,16), (7,20), (8,23), (11,25), (12,26), (14,28), (15,29), (17,32), (18,34), (19,35),
    (21,38), (22,41), (24,43), (27,44), (30,46), (31,47), (33,48), (36,50), (37,51), (39,53), (40,54), (42,57), (45,58), (49,59),
    (52,60), (55,62), (56,63), (61,64)]⟩,
    ⟨.down, 2, 1, [(1,2), (3,8), (4,9), (5,11), (6,14), (7,18), (10,23), (12,24), (13,25), (15,27), (16,28), (17,30), (19,33), (20,34),
    (21,36), (22,39), (26,43), (29,44), (31,45), (32,46), (35,48), (37,49), (38,50), (40,52), (41,53), (42,55), (47,58), (51,59),
    (54,60), (56,61), (57,62), (63,64)]⟩,
    ⟨.updo, 0, 0, [(1,6), (2,14), (3,15), (4,16), (5,17), (7,22), (8,27), (9,28), (10,29), (11,30), (12,31), (13,32), (18,39), (19,40),
    (20,41), (21,42), (23,44), (24,45), (25,46), (26,47), (33,52), (34,53), (35,54), (36,55), (37,56), (38,57), (43,58), (48,60),
    (49,61), (50,62), (51,63), (59,64)]⟩,
    ⟨.updo, 1, 0, [(1,4), (2,9), (3,10), (5,13), (6,16), (7,20), (8,23), (11,25), (12,26), (14,28), (15,29), (17,32), (18,34), (19,35),
    (21,38), (22,41), (24,43), (27,44), (30,46), (31,47), (33,48), (36,50), (37,51), (39,53), (40,54), (42,57), (45,58), (49,59),
    (52,60), (55,62), (56,63), (61,64)]⟩,
    ⟨.updo, 2, 0, [(1,2), (3,8), (4,9), (5,11), (6,14), (7,18), (10,23), (12,24), (13,25), (15,27), (16,28), (17,30), (19,33), (20,34),
    (21,36), (22,39), (26,43), (29,44), (31,45), (32,46), (35,48), (37,49), (38,50), (40,52), (41,53), (42,55), (47,58), (51,59),
    (54,60), (56,61), (57,62), (63,64)]⟩,
    ⟨.doup, 0, 1, [(1,7), (2,18), (3,19), (4,20), (5,21), (6,22), (8,33), (9,34), (10,35), (11,36), (12,37), (13,38), (14,39), (15,40),
    (16,41), (17,42), (23,48), (24,49), (25,50), (26,51), (27,52), (28,53), (29,54), (30,55), (31,56), (32,57), (43,59), (44,60),
    (45,61), (46,62), (47,63), (58,64)]⟩,
    ⟨.doup, 1, 1, [(1,5), (2,11), (3,12), (4,13), (6,17), (7,21), (8,24), (9,25), (10,26), (14,30), (15,31), (16,32), (18,36), (19,37),
    (20,38), (22,42), (23,43), (27,45), (28,46), (29,47), (33,49), (34,50), (35,51), (39,55), (40,56), (41,57), (44,58), (48,59),
    (52,61), (53,62), (54,63), (60,64)]⟩,
    ⟨.doup, 2, 1, [(1,3), (2,8), (4,10), (5,12), (6,15), (7,19), (9,23), (11,24), (13,26), (14,27), (16,29), (17,31), (18,33), (20,35),
    (21,37), (22,40), (25,43), (28,44), (30,45), (32,47), (34,48), (36,49), (38,51), (39,52), (41,54), (42,56), (46,58), (50,59),
    (53,60), (55,61), (57,63), (62,64)]⟩]
  siteHops := [(1,1), (2,2), (3,3), (4,4), (5,5), (6,6), (6,7), (7,7), (8,8), (9,9), (10,10), (11,11), (12,12), (13,13),
    (14,14), (14,18), (15,15), (15,19), (16,16), (16,20), (17,17), (17,21), (18,18), (19,19), (20,20), (21,21), (22,22), (23,23),
    (24,24), (25,25), (26,26), (27,27), (27,33), (28,28), (28,34), (29,29), (29,35), (30,30), (30,36), (31,31), (31,37), (32,32),
    (32,38), (33,33), (34,34), (35,35), (36,36), (37,37), (38,38), (39,39), (40,40), (41,41), (42,42), (43,43), (44,44), (44,48),
    (45,45), (45,49), (46,46), (46,50), (47,47), (47,51), (48,48), (49,49), (50,50), (51,51), (52,52), (53,53), (54,54), (55,55),
    (56,56), (57,57), (58,58), (58,59), (59,59), (60,60), (61,61), (62,62), (63,63), (64,64), (1,1), (2,2), (3,3), (4,4),
    (4,5), (5,5), (6,6), (7,7), (8,8), (9,9), (9,11), (10,10), (10,12), (11,11), (12,12), (13,13), (14,14), (15,15),
    (16,16), (16,17), (17,17), (18,18), (19,19), (20,20), (20,21), (21,21), (22,22), (23,23), (23,24), (24,24), (25,25), (26,26),
    (27,27), (28,28), (28,30), (29,29), (29,31), (30,30), (31,31), (32,32), (33,33), (34,34), (34,36), (35,35), (35,37), (36,36),
    (37,37), (38,38), (39,39), (40,40), (41,41), (41,42), (42,42), (43,43), (44,44), (44,45), (45,45), (46,46), (47,47), (48,48),
    (48,49), (49,49), (50,50), (51,51), (52,52), (53,53), (53,55), (54,54), (54,56), (55,55), (56,56), (57,57), (58,58), (59,59),
    (60,60), (60,61), (61,61), (62,62), (63,63), (64,64), (1,1), (2,2), (2,3), (3,3), (4,4), (5,5), (6,6), (7,7),
    (8,8), (9,9), (9,10), (10,10), (11,11), (11,12), (12,12), (13,13), (14,14), (14,15), (15,15), (16,16), (17,17), (18,18),
    (18,19), (19,19), (20,20), (21,21), (22,22), (23,23), (24,24), (25,25), (25,26), (26,26), (27,27), (28,28), (28,29), (29,29),
    (30,30), (30,31), (31,31), (32,32), (33,33), (34,34), (34,35), (35,35), (36,36), (36,37), (37,37), (38,38), (39,39), (39,40),
    (40,40), (41,41), (42,42), (43,43), (44,44), (45,45), (46,46), (46,47), (47,47), (48,48), (49,49), (50,50), (50,51), (51,51),
    (52,52), (53,53), (53,54), (54,54), (55,55), (55,56), (56,56), (57,57), (58,58), (59,59), (60,60), (61,61), (62,62), (62,63),
    (63,63), (64,64)]
  occupations := [
    ⟨.up, 0, [(1,0), (2,0), (3,0), (4,0), (5,0), (6,0), (7,2), (8,0), (9,0), (10,0), (11,0), (12,0), (13,0), (14,0),
    (15,0), (16,0), (17,0), (18,2), (19,2), (20,2), (21,2), (22,2), (23,0), (24,0), (25,0), (26,0), (27,0), (28,0),
    (29,0), (30,0), (31,0), (32,0), (33,2), (34,2), (35,2), (36,2), (37,2), (38,2), (39,2), (40,2), (41,2), (42,2),
    (43,0), (44,0), (45,0), (46,0), (47,0), (48,2), (49,2), (50,2), (51,2), (52,2), (53,2), (54,2), (55,2), (56,2),
    (57,2), (58,0), (59,2), (60,2), (61,2), (62,2), (63,2), (64,2)]⟩,
    ⟨.up, 1, [(1,0), (2,0), (3,0), (4,0), (5,2), (6,0), (7,0), (8,0), (9,0), (10,0), (11,2), (12,2), (13,2), (14,0),
    (15,0), (16,0), (17,2), (18,0), (19,0), (20,0), (21,2), (22,0), (23,0), (24,2), (25,2), (26,2), (27,0), (28,0),
    (29,0), (30,2), (31,2), (32,2), (33,0), (34,0), (35,0), (36,2), (37,2), (38,2), (39,0), (40,0), (41,0), (42,2),
    (43,2), (44,0), (45,2), (46,2), (47,2), (48,0), (49,2), (50,2), (51,2), (52,0), (53,0), (54,0), (55,2), (56,2),
    (57,2), (58,2), (59,2), (60,0), (61,2), (62,2), (63,2), (64,2)]⟩,
    ⟨.up, 2, [(1,0), (2,0), (3,2), (4,0), (5,0), (6,0), (7,0), (8,2), (9,0), (10,2), (11,0), (12,2), (13,0), (14,0),
    (15,2), (16,0), (17,0), (18,0), (19,2), (20,0), (21,0), (22,0), (23,2), (24,2), (25,0), (26,2), (27,2), (28,0),
    (29,2), (30,0), (31,2), (32,0), (33,2), (34,0), (35,2), (36,0), (37,2), (38,0), (39,0), (40,2), (41,0), (42,0),
    (43,2), (44,2), (45,2), (46,0), (47,2), (48,2), (49,2), (50,0), (51,2), (52,2), (53,0), (54,2), (55,0), (56,2),
    (57,0), (58,2), (59,2), (60,2), (61,2), (62,0), (63,2), (64,2)]⟩,
    ⟨.down, 0, [(1,0), (2,0), (3,0), (4,0), (5,0), (6,2), (7,0), (8,0), (9,0), (10,0), (11,0), (12,0), (13,0), (14,2),
    (15,2), (16,2), (17,2), (18,0), (19,0), (20,0), (21,0), (22,2), (23,0), (24,0), (25,0), (26,0), (27,2), (28,2),
    (29,2), (30,2), (31,2), (32,2), (33,0), (34,0), (35,0), (36,0), (37,0), (38,0), (39,2), (40,2), (41,2), (42,2),
    (43,0), (44,2), (45,2), (46,2), (47,2), (48,0), (49,0), (50,0), (51,0), (52,2), (53,2), (54,2), (55,2), (56,2),
    (57,2), (58,2), (59,0), (60,2), (61,2), (62,2), (63,2), (64,2)]⟩,
    ⟨.down, 1, [(1,0), (2,0), (3,0), (4,2), (5,0), (6,0), (7,0), (8,0), (9,2), (10,2), (11,0), (12,0), (13,2), (14,0),
    (15,0), (16,2), (17,0), (18,0), (19,0), (20,2), (21,0), (22,0), (23,2), (24,0), (25,2), (26,2), (27,0), (28,2),
    (29,2), (30,0), (31,0), (32,2), (33,0), (34,2), (35,2), (36,0), (37,0), (38,2), (39,0), (40,0), (41,2), (42,0),
    (43,2), (44,2), (45,0), (46,2), (47,2), (48,2), (49,0), (50,2), (51,2), (52,0), (53,2), (54,2), (55,0), (56,0),
    (57,2), (58,2), (59,2), (60,2), (61,0), (62,2), (63,2), (64,2)]⟩,
    ⟨.down, 2, [(1,0), (2,2), (3,0), (4,0), (5,0), (6,0), (7,0), (8,2), (9,2), (10,0), (11,2), (12,0), (13,0), (14,2),
    (15,0), (16,0), (17,0), (18,2), (19,0), (20,0), (21,0), (22,0), (23,2), (24,2), (25,2), (26,0), (27,2), (28,2),
    (29,0), (30,2), (31,0), (32,0), (33,2), (34,2), (35,0), (36,2), (37,0), (38,0), (39,2), (40,0), (41,0), (42,0),
    (43,2), (44,2), (45,2), (46,2), (47,0), (48,2), (49,2), (50,2), (51,0), (52,2), (53,2), (54,0), (55,2), (56,0),
    (57,0), (58,2), (59,2), (60,2), (61,2), (62,2), (63,0), (64,2)]⟩]

/-- `make_matrix_nonpolarized` in `sym-U1-impl.hpp`: `u1/u1-3ch-offdiag-UP.dat`, `u1/u1-3ch-offdiag-DO.dat`, `u1/u1-3ch-diag.dat`. -/
def ham_U1_3ch_nonpolarized : HamTable where
  variant := .nonpolarized
  hops := [
    ⟨.up, 0, 1, [(1,7), (2,18), (3,19), (4,20), (5,21), (6,22), (8,33), (9,34), (10,35), (11,36), (12,37), (13,38), (14,39), (15,40),
    (16,41), (17,42), (23,48), (24,49), (25,50), (26,51), (27,52), (28,53), (29,54), (30,55), (31,56), (32,57), (43,59), (44,60),
    (45,61), (46,62), (47,63), (58,64)]⟩,
    ⟨.up, 1, 1, [(1,5), (2,11), (3,12), (4,13), (6,17), (7,21), (8,24), (9,25), (10,26), (14,30), (15,31), (16,32), (18,36), (19,37),
    (20,38), (22,42), (23,43), (27,45), (28,46), (29,47), (33,49), (34,50), (35,51), (39,55), (40,56), (41,57), (44,58), (48,59),
    (52,61), (53,62), (54,63), (60,64)]⟩,
    ⟨.up, 2, 1, [(1,3), (2,8), (4,10), (5,12), (6,15), (7,19), (9,23), (11,24), (13,26), (14,27), (16,29), (17,31), (18,33), (20,35),
    (21,37), (22,40), (25,43), (28,44), (30,45), (32,47), (34,48), (36,49), (38,51), (39,52), (41,54), (42,56), (46,58), (50,59),
    (53,60), (55,61), (57,63), (62,64)]⟩,
    ⟨.down, 0, 0, [(1,6), (2,14), (3,15), (4,16), (5,17), (7,22), (8,27), (9,28), (10,29), (11,30), (12,31), (13,32), (18,39), (19,40),
    (20,41), (21,42), (23,44), (24,45), (25,46), (26,47), (33,52), (34,53), (35,54), (36,55), (37,56), (38,57), (43,58), (48,60),
    (49,61), (50,62), (51,63), (59,64)]⟩,
    ⟨.down, 1, 0, [(1,4), (2,9), (3,10), (5,13), (6,16), (7,20), (8,23), (11,25), (12,26), (14,28), (15,29), (17,32), (18,34), (19,35),
    (21,38), (22,41), (24,43), (27,44), (30,46), (31,47), (33,48), (36,50), (37,51), (39,53), (40,54), (42,57), (45,58), (49,59),
    (52,60), (55,62), (56,63), (61,64)]⟩,
    ⟨.down, 2, 0, [(1,2), (3,8), (4,9), (5,11), (6,14), (7,18), (10,23), (12,24), (13,25), (15,27), (16,28), (17,30), (19,33), (20,34),
    (21,36), (22,39), (26,43), (29,44), (31,45), (32,46), (35,48), (37,49), (38,50), (40,52), (41,53), (42,55), (47,58), (51,59),
    (54,60), (56,61), (57,62), (63,64)]⟩]
  siteHops := []
  occupations := [
    ⟨.both, 0, [(1,0), (2,0), (3,0), (4,0), (5,0), (6,2), (7,2), (8,0), (9,0), (10,0), (11,0), (12,0), (13,0), (14,2),
    (15,2), (16,2), (17,2), (18,2), (19,2), (20,2), (21,2), (22,4), (23,0), (24,0), (25,0), (26,0), (27,2), (28,2),
    (29,2), (30,2), (31,2), (32,2), (33,2), (34,2), (35,2), (36,2), (37,2), (38,2), (39,4), (40,4), (41,4), (42,4),
    (43,0), (44,2), (45,2), (46,2), (47,2), (48,2), (49,2), (50,2), (51,2), (52,4), (53,4), (54,4), (55,4), (56,4),
    (57,4), (58,2), (59,2), (60,4), (61,4), (62,4), (63,4), (64,4)]⟩,
    ⟨.both, 1, [(1,0), (2,0), (3,0), (4,2), (5,2), (6,0), (7,0), (8,0), (9,2), (10,2), (11,2), (12,2), (13,4), (14,0),
    (15,0), (16,2), (17,2), (18,0), (19,0), (20,2), (21,2), (22,0), (23,2), (24,2), (25,4), (26,4), (27,0), (28,2),
    (29,2), (30,2), (31,2), (32,4), (33,0), (34,2), (35,2), (36,2), (37,2), (38,4), (39,0), (40,0), (41,2), (42,2),
    (43,4), (44,2), (45,2), (46,4), (47,4), (48,2), (49,2), (50,4), (51,4), (52,0), (53,2), (54,2), (55,2), (56,2),
    (57,4), (58,4), (59,4), (60,2), (61,2), (62,4), (63,4), (64,4)]⟩,
    ⟨.both, 2, [(1,0), (2,2), (3,2), (4,0), (5,0), (6,0), (7,0), (8,4), (9,2), (10,2), (11,2), (12,2), (13,0), (14,2),
    (15,2), (16,0), (17,0), (18,2), (19,2), (20,0), (21,0), (22,0), (23,4), (24,4), (25,2), (26,2), (27,4), (28,2),
    (29,2), (30,2), (31,2), (32,0), (33,4), (34,2), (35,2), (36,2), (37,2), (38,0), (39,2), (40,2), (41,0), (42,0),
    (43,4), (44,4), (45,4), (46,2), (47,2), (48,4), (49,4), (50,2), (51,2), (52,4), (53,2), (54,2), (55,2), (56,2),
    (57,0), (58,4), (59,4), (60,4), (61,4), (62,2), (63,2), (64,4)]⟩]

/-- Class `SymmetryU1` with 3 channel(s). -/
def ham_U1_3ch : Ham where
  builtin := ⟨"U1", 3, fields_U1, tab_U1_3ch⟩
  blocks := fblocks_U1_3ch
  invarF := none
  guard := .plain
  variants := [ham_U1_3ch_polarized, ham_U1_3ch_pol2x2, ham_U1_3ch_nonpolarized]

/-- All built-in classes and channel numbers. -/
def hams : List Ham := [
  ham_DBLISOSZ_2ch,
  ham_DBLQSZ_2ch,
  ham_DBLSU2_2ch,
  ham_ISO_1ch,
  ham_ISO_2ch,
  ham_ISO_3ch,
  ham_ISO2_1ch,
  ham_ISO2_2ch,
  ham_ISOLR_2ch,
  ham_ISO2LR_2ch,
  ham_ISOSZ_1ch,
  ham_ISOSZ_2ch,
  ham_ISOSZLR_2ch,
  ham_NONE_1ch,
  ham_NONE_2ch,
  ham_P_1ch,
  ham_P_2ch,
  ham_PP_2ch,
  ham_QJ_3ch,
  ham_QS_1ch,
  ham_QS_2ch,
  ham_QS_3ch,
  ham_QS_4ch,
  ham_QSC3_3ch,
  ham_QSLR_2ch,
  ham_QST_3ch,
  ham_QSTZ_3ch,
  ham_QSZ_1ch,
  ham_QSZ_2ch,
  ham_QSZ_3ch,
  ham_QSZLR_2ch,
  ham_QSZTZ_3ch,
  ham_SL_1ch,
  ham_SL_2ch,
  ham_SL_3ch,
  ham_SL3_3ch,
  ham_SPSU2_1ch,
  ham_SPSU2_2ch,
  ham_SPSU2_3ch,
  ham_SPSU2C3_3ch,
  ham_SPSU2LR_2ch,
  ham_SPSU2T_3ch,
  ham_SPU1_1ch,
  ham_SPU1_2ch,
  ham_SPU1LR_1ch,
  ham_SPU1LR_2ch,
  ham_SU2_1ch,
  ham_SU2_2ch,
  ham_U1_1ch,
  ham_U1_2ch,
  ham_U1_3ch]

end Verif.Hop
