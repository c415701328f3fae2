import Verif.Coef.Plan
/-!
# The site multiplets in the operator tables (Rest)

Generated by `scripts/gen_plans.py`.
-/

namespace Verif.Coef

/-- The kinds of site multiplets in `op_DBLISOSZ_2ch_doublet`. -/
def plan_DBLISOSZ_2ch_doublet : Plan where
  mts := [

    ⟨[1, 1, 0], [[0, 0, 0]], [[(0, 0, 0)], [(0, 0, 0)], [(0, 0, 0)], [(0, 0, 0)], [(0, 0, 0)], [(0, 0, 0)], [(0, 0, 0)], [(0, 0, 0)]]⟩,
    ⟨[1, 2, 0], [[0, -1, 0], [0, 1, 0]], [[(0, 0, 1), (1, 1, 1)], [(0, 0, 1), (1, 1, 1)], [(0, 0, 1), (1, 1, 1)], [(0, 0, 1), (1, 1, 1)], [(0, 0, 1), (0, 1, 6), (1, 1, 7)], [(0, 0, 1), (0, 1, 6), (1, 1, 7)], [(0, 0, 7), (1, 0, 8), (1, 1, 1)], [(0, 0, 7), (1, 0, 8), (1, 1, 1)]]⟩,
    ⟨[2, 1, 0], [[-1, 0, 0], [1, 0, 0]], [[(0, 0, 1), (0, 1, 2), (1, 1, 3)], [(0, 0, 1), (0, 1, 2), (1, 1, 3)], [(0, 0, 3), (1, 0, 4), (1, 1, 1)], [(0, 0, 3), (1, 0, 4), (1, 1, 1)], [(0, 0, 1), (1, 1, 1)], [(0, 0, 1), (1, 1, 1)], [(0, 0, 1), (1, 1, 1)], [(0, 0, 1), (1, 1, 1)]]⟩,
    ⟨[2, 2, 0], [[-1, -1, 0], [-1, 1, 0], [1, -1, 0], [1, 1, 0]], [[(0, 0, 0), (0, 2, 4), (1, 1, 0), (1, 3, 4), (2, 2, 5), (3, 3, 5)], [(0, 0, 0), (0, 2, 4), (1, 1, 0), (1, 3, 4), (2, 2, 5), (3, 3, 5)], [(0, 0, 5), (1, 1, 5), (2, 0, 2), (2, 2, 0), (3, 1, 2), (3, 3, 0)], [(0, 0, 5), (1, 1, 5), (2, 0, 2), (2, 2, 0), (3, 1, 2), (3, 3, 0)], [(0, 0, 0), (0, 1, 8), (1, 1, 9), (2, 2, 0), (2, 3, 8), (3, 3, 9)], [(0, 0, 0), (0, 1, 8), (1, 1, 9), (2, 2, 0), (2, 3, 8), (3, 3, 9)], [(0, 0, 9), (1, 0, 6), (1, 1, 0), (2, 2, 9), (3, 2, 6), (3, 3, 0)], [(0, 0, 9), (1, 0, 6), (1, 1, 0), (2, 2, 9), (3, 2, 6), (3, 3, 0)]]⟩]
  inst := [
    (0, [0, 0, 2]), (0, [0, 0, 0]), (0, [0, 0, 0]), (0, [0, 0, -2]), (1, [0, 0, 1]), (1, [0, 0, -1]),
    (2, [0, 0, 1]), (2, [0, 0, -1]), (3, [0, 0, 0])]
  loc := 0x20302020201020001c101c001810180014101400101010000c0008000400000

/-- The kinds of site multiplets in `op_DBLQSZ_2ch_doublet`. -/
def plan_DBLQSZ_2ch_doublet : Plan where
  mts := [
    ⟨[0, 0, 0], [[0, 0, 0]], [[(0, 0, 0)], [(0, 0, 0)], [(0, 0, 0)], [(0, 0, 0)]]⟩,
    ⟨[0, 0, 0], [[0, 0, 0]], [[(0, 0, 1)], [(0, 0, 1)], [(0, 0, 1)], [(0, 0, 1)]]⟩]
  inst := [
    (0, [1, 1, 0]), (1, [1, 0, 1]), (1, [1, 0, -1]), (0, [1, -1, 0]), (1, [0, 1, 1]), (1, [0, 1, -1]),
    (0, [0, 0, 2]), (0, [0, 0, 0]), (0, [0, 0, 0]), (0, [0, 0, -2]), (1, [0, -1, 1]), (1, [0, -1, -1]),
    (0, [-1, 1, 0]), (1, [-1, 0, 1]), (1, [-1, 0, -1]), (0, [-1, -1, 0])]
  loc := 0x3c003800340030002c002800240020001c001800140010000c0008000400000

/-- The kinds of site multiplets in `op_ISO_1ch_doublet`. -/
def plan_ISO_1ch_doublet : Plan where
  mts := [

    ⟨[2, 1], [[-1, 0], [1, 0]], [[(0, 0, 0), (0, 1, 1), (1, 1, 2)], [(0, 0, 0), (0, 1, 1), (1, 1, 2)], [(0, 0, 2), (1, 0, 7), (1, 1, 0)], [(0, 0, 2), (1, 0, 7), (1, 1, 0)]]⟩,
    ⟨[1, 2], [[0, -1], [0, 1]], [[(0, 0, 3), (1, 0, 4), (1, 1, 5)], [(0, 0, 5), (0, 1, 6), (1, 1, 3)], [(0, 0, 3), (1, 0, 4), (1, 1, 5)], [(0, 0, 5), (0, 1, 6), (1, 1, 3)]]⟩]
  inst := [
    (0, [0, 0]), (1, [0, 0])]
  loc := 0x41004000010000

/-- The kinds of site multiplets in `op_ISO_2ch_doublet`. -/
def plan_ISO_2ch_doublet : Plan where
  mts := [

    ⟨[3, 1], [[-2, 0], [0, 0], [2, 0]], [[(0, 0, 0), (0, 1, 8), (1, 1, 9), (1, 2, 10), (2, 2, 11)], [(0, 0, 0), (0, 1, 8), (1, 1, 9), (1, 2, 10), (2, 2, 11)], [(0, 0, 28), (1, 0, 29), (1, 1, 30), (2, 1, 31), (2, 2, 0)], [(0, 0, 28), (1, 0, 29), (1, 1, 30), (2, 1, 31), (2, 2, 0)]]⟩,
    ⟨[2, 2], [[-1, -1], [1, -1], [-1, 1], [1, 1]], [[(0, 0, 3), (0, 1, 12), (1, 1, 13), (2, 0, 4), (2, 1, 14), (2, 2, 5), (2, 3, 7), (3, 1, 15), (3, 3, 16)], [(0, 0, 5), (0, 1, 7), (0, 2, 6), (0, 3, 21), (1, 1, 22), (1, 3, 23), (2, 2, 3), (2, 3, 12), (3, 3, 13)], [(0, 0, 13), (1, 0, 32), (1, 1, 3), (2, 0, 15), (2, 2, 22), (3, 0, 21), (3, 1, 4), (3, 2, 1), (3, 3, 5)], [(0, 0, 22), (0, 2, 23), (1, 0, 1), (1, 1, 5), (1, 2, 14), (1, 3, 6), (2, 2, 13), (3, 2, 32), (3, 3, 3)]]⟩,
    ⟨[1, 3], [[0, -2], [0, 0], [0, 2]], [[(0, 0, 17), (1, 0, 18), (1, 1, 19), (2, 1, 20), (2, 2, 0)], [(0, 0, 0), (0, 1, 24), (1, 1, 25), (1, 2, 26), (2, 2, 27)], [(0, 0, 17), (1, 0, 18), (1, 1, 19), (2, 1, 20), (2, 2, 0)], [(0, 0, 0), (0, 1, 24), (1, 1, 25), (1, 2, 26), (2, 2, 27)]]⟩,
    ⟨[1, 1], [[0, 0]], [[(0, 0, 0)], [(0, 0, 0)], [(0, 0, 0)], [(0, 0, 0)]]⟩]
  inst := [
    (0, [0, 0]), (1, [0, 0]), (1, [0, 0]), (2, [0, 0]), (3, [0, 0]), (3, [0, 0])]
  loc := 0x140010000c200c100c000830082008100800043004200410040000200010000

/-- The kinds of site multiplets in `op_ISO_1ch_triplet`. -/
def plan_ISO_1ch_triplet : Plan where
  mts := [
    ⟨[2, 1], [[-1, 0]], [[(0, 0, 0)], [(0, 0, 0)], [(0, 0, 0)]]⟩,
    ⟨[2, 1], [[1, 0]], [[(0, 0, 0)], [(0, 0, 0)], [(0, 0, 0)]]⟩,
    ⟨[1, 2], [[0, -1], [0, 1]], [[(0, 0, 17), (0, 1, 26), (1, 0, 18), (1, 1, 33)], [(0, 0, 34), (1, 0, 20), (1, 1, 0)], [(0, 0, 0), (0, 1, 24), (1, 1, 35)]]⟩]
  inst := [
    (0, [0, 0]), (1, [0, 0]), (2, [0, 0])]
  loc := 0x81008000400000

/-- The kinds of site multiplets in `op_ISO_2ch_triplet`. -/
def plan_ISO_2ch_triplet : Plan where
  mts := [
    ⟨[3, 1], [[-2, 0]], [[(0, 0, 0)], [(0, 0, 0)], [(0, 0, 0)]]⟩,
    ⟨[3, 1], [[0, 0]], [[(0, 0, 0)], [(0, 0, 0)], [(0, 0, 0)]]⟩,
    ⟨[3, 1], [[2, 0]], [[(0, 0, 0)], [(0, 0, 0)], [(0, 0, 0)]]⟩,
    ⟨[2, 2], [[-1, -1], [-1, 1]], [[(0, 0, 17), (0, 1, 26), (1, 0, 18), (1, 1, 36)], [(0, 0, 34), (1, 0, 20), (1, 1, 0)], [(0, 0, 0), (0, 1, 24), (1, 1, 48)]]⟩,
    ⟨[2, 2], [[1, -1], [1, 1]], [[(0, 0, 17), (0, 1, 26), (1, 0, 18), (1, 1, 36)], [(0, 0, 34), (1, 0, 20), (1, 1, 0)], [(0, 0, 0), (0, 1, 24), (1, 1, 49)]]⟩,
    ⟨[1, 3], [[0, -2], [0, 0], [0, 2]], [[(0, 0, 37), (0, 1, 38), (1, 0, 39), (1, 1, 40), (1, 2, 41), (2, 1, 42), (2, 2, 43)], [(0, 0, 44), (1, 0, 45), (1, 1, 43), (2, 0, 46), (2, 1, 47), (2, 2, 0)], [(0, 0, 0), (0, 1, 50), (0, 2, 51), (1, 1, 37), (1, 2, 38), (2, 2, 44)]]⟩,
    ⟨[1, 1], [[0, 0]], [[(0, 0, 0)], [(0, 0, 0)], [(0, 0, 0)]]⟩]
  inst := [
    (0, [0, 0]), (1, [0, 0]), (2, [0, 0]), (3, [0, 0]), (4, [0, 0]), (3, [0, 0]), (4, [0, 0]), (5, [0, 0]),
    (6, [0, 0]), (6, [0, 0])]
  loc := 0x240020001c201c101c00181014101800140010100c1010000c0008000400000

/-- The kinds of site multiplets in `op_ISO2_1ch_doublet`. -/
def plan_ISO2_1ch_doublet : Plan where
  mts := [

    ⟨[2, 1], [[-1, 0], [1, 0]], [[(0, 0, 0), (0, 1, 1), (1, 1, 2)], [(0, 0, 0), (0, 1, 1), (1, 1, 2)], [(0, 0, 2), (1, 0, 7), (1, 1, 0)], [(0, 0, 2), (1, 0, 7), (1, 1, 0)]]⟩,
    ⟨[1, 2], [[0, -1], [0, 1]], [[(0, 0, 3), (1, 0, 4), (1, 1, 5)], [(0, 0, 5), (0, 1, 6), (1, 1, 3)], [(0, 0, 3), (1, 0, 4), (1, 1, 5)], [(0, 0, 5), (0, 1, 6), (1, 1, 3)]]⟩]
  inst := [
    (0, [0, 0]), (1, [0, 0])]
  loc := 0x41004000010000

/-- The kinds of site multiplets in `op_ISO2_2ch_doublet`. -/
def plan_ISO2_2ch_doublet : Plan where
  mts := [

    ⟨[3, 1], [[-2, 0], [0, 0], [2, 0]], [[(0, 0, 0), (0, 1, 8), (1, 1, 9), (1, 2, 10), (2, 2, 11)], [(0, 0, 0), (0, 1, 8), (1, 1, 9), (1, 2, 10), (2, 2, 11)], [(0, 0, 27), (1, 0, 28), (1, 1, 29), (2, 1, 30), (2, 2, 0)], [(0, 0, 27), (1, 0, 28), (1, 1, 29), (2, 1, 30), (2, 2, 0)]]⟩,
    ⟨[2, 2], [[-1, -1], [1, -1], [-1, 1], [1, 1]], [[(0, 0, 3), (0, 1, 12), (1, 1, 13), (2, 0, 4), (2, 1, 14), (2, 2, 5), (2, 3, 7), (3, 1, 15), (3, 3, 16)], [(0, 0, 5), (0, 1, 7), (0, 2, 6), (0, 3, 21), (1, 1, 16), (1, 3, 22), (2, 2, 3), (2, 3, 12), (3, 3, 13)], [(0, 0, 13), (1, 0, 31), (1, 1, 3), (2, 0, 15), (2, 2, 16), (3, 0, 21), (3, 1, 4), (3, 2, 1), (3, 3, 5)], [(0, 0, 16), (0, 2, 22), (1, 0, 1), (1, 1, 5), (1, 2, 14), (1, 3, 6), (2, 2, 13), (3, 2, 31), (3, 3, 3)]]⟩,
    ⟨[1, 3], [[0, -2], [0, 0], [0, 2]], [[(0, 0, 17), (1, 0, 18), (1, 1, 19), (2, 1, 20), (2, 2, 0)], [(0, 0, 0), (0, 1, 23), (1, 1, 24), (1, 2, 25), (2, 2, 26)], [(0, 0, 17), (1, 0, 18), (1, 1, 19), (2, 1, 20), (2, 2, 0)], [(0, 0, 0), (0, 1, 23), (1, 1, 24), (1, 2, 25), (2, 2, 26)]]⟩,
    ⟨[1, 1], [[0, 0]], [[(0, 0, 0)], [(0, 0, 0)], [(0, 0, 0)], [(0, 0, 0)]]⟩]
  inst := [
    (0, [0, 0]), (1, [0, 0]), (1, [0, 0]), (2, [0, 0]), (3, [0, 0]), (3, [0, 0])]
  loc := 0x140010000c200c100c000830082008100800043004200410040000200010000

/-- The kinds of site multiplets in `op_ISO2_1ch_triplet`. -/
def plan_ISO2_1ch_triplet : Plan where
  mts := [
    ⟨[2, 1], [[-1, 0]], [[(0, 0, 0)], [(0, 0, 0)], [(0, 0, 0)]]⟩,
    ⟨[2, 1], [[1, 0]], [[(0, 0, 0)], [(0, 0, 0)], [(0, 0, 0)]]⟩,
    ⟨[1, 2], [[0, -1], [0, 1]], [[(0, 0, 17), (0, 1, 25), (1, 0, 18), (1, 1, 32)], [(0, 0, 33), (1, 0, 34), (1, 1, 0)], [(0, 0, 0), (0, 1, 23), (1, 1, 35)]]⟩]
  inst := [
    (0, [0, 0]), (1, [0, 0]), (2, [0, 0])]
  loc := 0x81008000400000

/-- The kinds of site multiplets in `op_ISO2_2ch_triplet`. -/
def plan_ISO2_2ch_triplet : Plan where
  mts := [
    ⟨[3, 1], [[-2, 0]], [[(0, 0, 0)], [(0, 0, 0)], [(0, 0, 0)]]⟩,
    ⟨[3, 1], [[0, 0]], [[(0, 0, 0)], [(0, 0, 0)], [(0, 0, 0)]]⟩,
    ⟨[3, 1], [[2, 0]], [[(0, 0, 0)], [(0, 0, 0)], [(0, 0, 0)]]⟩,
    ⟨[2, 2], [[-1, -1], [-1, 1]], [[(0, 0, 17), (0, 1, 25), (1, 0, 18), (1, 1, 32)], [(0, 0, 33), (1, 0, 34), (1, 1, 0)], [(0, 0, 0), (0, 1, 23), (1, 1, 35)]]⟩,
    ⟨[2, 2], [[1, -1], [1, 1]], [[(0, 0, 17), (0, 1, 25), (1, 0, 18), (1, 1, 36)], [(0, 0, 44), (1, 0, 20), (1, 1, 0)], [(0, 0, 0), (0, 1, 23), (1, 1, 35)]]⟩,
    ⟨[1, 3], [[0, -2], [0, 0], [0, 2]], [[(0, 0, 37), (0, 1, 38), (1, 0, 39), (1, 1, 40), (1, 2, 41), (2, 1, 42), (2, 2, 43)], [(0, 0, 45), (1, 0, 46), (1, 1, 47), (2, 0, 48), (2, 1, 49), (2, 2, 0)], [(0, 0, 0), (0, 1, 50), (0, 2, 51), (1, 1, 37), (1, 2, 38), (2, 2, 45)]]⟩,
    ⟨[1, 1], [[0, 0]], [[(0, 0, 0)], [(0, 0, 0)], [(0, 0, 0)]]⟩]
  inst := [
    (0, [0, 0]), (1, [0, 0]), (2, [0, 0]), (3, [0, 0]), (4, [0, 0]), (3, [0, 0]), (4, [0, 0]), (5, [0, 0]),
    (6, [0, 0]), (6, [0, 0])]
  loc := 0x240020001c201c101c00181014101800140010100c1010000c0008000400000

/-- The kinds of site multiplets in `op_ISOLR_2ch_doublet`. -/
def plan_ISOLR_2ch_doublet : Plan where
  mts := [
    ⟨[1, 1, 1], [[0, 0, 1]], [[(0, 0, 0)], [(0, 0, 0)], [(0, 0, 0)], [(0, 0, 0)]]⟩,
    ⟨[1, 3, 1], [[0, -2, 1], [0, 0, 1], [0, 2, 1]], [[(0, 0, 1), (1, 0, 2), (1, 1, 3), (2, 1, 4), (2, 2, 0)], [(0, 0, 18), (0, 1, 19), (1, 1, 20), (1, 2, 21), (2, 2, 22)], [(0, 0, 1), (1, 0, 2), (1, 1, 3), (2, 1, 4), (2, 2, 0)], [(0, 0, 18), (0, 1, 19), (1, 1, 20), (1, 2, 21), (2, 2, 36)]]⟩,
    ⟨[2, 2, 1], [[-1, -1, 1], [1, -1, 1], [-1, 1, 1], [1, 1, 1]], [[(0, 0, 5), (0, 1, 6), (1, 1, 7), (2, 0, 8), (2, 1, 9), (2, 2, 0), (2, 3, 10), (3, 1, 11), (3, 3, 12)], [(0, 0, 0), (0, 1, 10), (0, 2, 23), (0, 3, 24), (1, 1, 12), (1, 3, 25), (2, 2, 5), (2, 3, 26), (3, 3, 27)], [(0, 0, 29), (1, 0, 30), (1, 1, 5), (2, 0, 11), (2, 2, 12), (3, 0, 24), (3, 1, 8), (3, 2, 31), (3, 3, 0)], [(0, 0, 12), (0, 2, 25), (1, 0, 31), (1, 1, 0), (1, 2, 9), (1, 3, 23), (2, 2, 37), (3, 2, 30), (3, 3, 38)]]⟩,
    ⟨[3, 1, 1], [[-2, 0, 1], [0, 0, 1], [2, 0, 1]], [[(0, 0, 13), (0, 1, 14), (1, 1, 15), (1, 2, 16), (2, 2, 17)], [(0, 0, 13), (0, 1, 14), (1, 1, 15), (1, 2, 16), (2, 2, 28)], [(0, 0, 32), (1, 0, 33), (1, 1, 34), (2, 1, 35), (2, 2, 0)], [(0, 0, 32), (1, 0, 33), (1, 1, 34), (2, 1, 35), (2, 2, 0)]]⟩]
  inst := [
    (0, [0, 0, -1]), (0, [0, 0, 1]), (1, [0, 0, -1]), (2, [0, 0, -1]), (2, [0, 0, 1]), (3, [0, 0, 1])]
  loc := 0x14201410140010301020101010000c300c200c100c000820081008000400000

/-- The kinds of site multiplets in `op_ISOLR_2ch_triplet`. -/
def plan_ISOLR_2ch_triplet : Plan where
  mts := [
    ⟨[1, 1, 1], [[0, 0, 1]], [[(0, 0, 0)], [(0, 0, 0)], [(0, 0, 0)]]⟩,
    ⟨[1, 3, 1], [[0, -2, 1], [0, 0, 1], [0, 2, 1]], [[(0, 0, 39), (0, 1, 40), (1, 0, 41), (1, 1, 42), (1, 2, 43), (2, 1, 44), (2, 2, 45)], [(0, 0, 48), (1, 0, 49), (1, 1, 45), (2, 0, 50), (2, 1, 51), (2, 2, 0)], [(0, 0, 18), (0, 1, 54), (0, 2, 55), (1, 1, 56), (1, 2, 57), (2, 2, 58)]]⟩,
    ⟨[2, 2, 1], [[-1, -1, 1], [-1, 1, 1]], [[(0, 0, 46), (0, 1, 21), (1, 0, 2), (1, 1, 47)], [(0, 0, 52), (1, 0, 4), (1, 1, 0)], [(0, 0, 18), (0, 1, 59), (1, 1, 62)]]⟩,
    ⟨[2, 2, 1], [[1, -1, 1], [1, 1, 1]], [[(0, 0, 46), (0, 1, 21), (1, 0, 2), (1, 1, 47)], [(0, 0, 53), (1, 0, 4), (1, 1, 0)], [(0, 0, 60), (0, 1, 61), (1, 1, 63)]]⟩,
    ⟨[3, 1, 1], [[-2, 0, 1]], [[(0, 0, 13)], [(0, 0, 13)], [(0, 0, 13)]]⟩,
    ⟨[3, 1, 1], [[0, 0, 1]], [[(0, 0, 0)], [(0, 0, 0)], [(0, 0, 0)]]⟩,
    ⟨[3, 1, 1], [[2, 0, 1]], [[(0, 0, 0)], [(0, 0, 0)], [(0, 0, 0)]]⟩]
  inst := [
    (0, [0, 0, -1]), (0, [0, 0, 1]), (1, [0, 0, -1]), (2, [0, 0, -1]), (3, [0, 0, -1]), (2, [0, 0, 1]),
    (3, [0, 0, 1]), (4, [0, 0, 1]), (5, [0, 0, 1]), (6, [0, 0, 1])]
  loc := 0x240020001c00181014101800140010100c1010000c000820081008000400000

/-- The kinds of site multiplets in `op_ISO2LR_2ch_doublet`. -/
def plan_ISO2LR_2ch_doublet : Plan where
  mts := [
    ⟨[1, 1, 1], [[0, 0, 1]], [[(0, 0, 0)], [(0, 0, 0)], [(0, 0, 0)], [(0, 0, 0)]]⟩,
    ⟨[1, 3, 1], [[0, -2, 1], [0, 0, 1], [0, 2, 1]], [[(0, 0, 1), (1, 0, 2), (1, 1, 3), (2, 1, 4), (2, 2, 0)], [(0, 0, 19), (0, 1, 20), (1, 1, 21), (1, 2, 22), (2, 2, 23)], [(0, 0, 1), (1, 0, 2), (1, 1, 3), (2, 1, 4), (2, 2, 0)], [(0, 0, 19), (0, 1, 20), (1, 1, 21), (1, 2, 22), (2, 2, 23)]]⟩,
    ⟨[2, 2, 1], [[-1, -1, 1], [1, -1, 1], [-1, 1, 1], [1, 1, 1]], [[(0, 0, 5), (0, 1, 6), (1, 1, 7), (2, 0, 8), (2, 1, 9), (2, 2, 10), (2, 3, 11), (3, 1, 12), (3, 3, 13)], [(0, 0, 24), (0, 1, 25), (0, 2, 26), (0, 3, 27), (1, 1, 28), (1, 3, 29), (2, 2, 5), (2, 3, 6), (3, 3, 7)], [(0, 0, 7), (1, 0, 30), (1, 1, 5), (2, 0, 12), (2, 2, 13), (3, 0, 27), (3, 1, 8), (3, 2, 31), (3, 3, 10)], [(0, 0, 36), (0, 2, 29), (1, 0, 37), (1, 1, 38), (1, 2, 9), (1, 3, 26), (2, 2, 7), (3, 2, 30), (3, 3, 5)]]⟩,
    ⟨[3, 1, 1], [[-2, 0, 1], [0, 0, 1], [2, 0, 1]], [[(0, 0, 14), (0, 1, 15), (1, 1, 16), (1, 2, 17), (2, 2, 18)], [(0, 0, 14), (0, 1, 15), (1, 1, 16), (1, 2, 17), (2, 2, 18)], [(0, 0, 32), (1, 0, 33), (1, 1, 34), (2, 1, 35), (2, 2, 0)], [(0, 0, 32), (1, 0, 33), (1, 1, 34), (2, 1, 35), (2, 2, 0)]]⟩]
  inst := [
    (0, [0, 0, 1]), (0, [0, 0, 1]), (1, [0, 0, -1]), (2, [0, 0, -1]), (2, [0, 0, 1]), (3, [0, 0, 1])]
  loc := 0x14201410140010301020101010000c300c200c100c000820081008000400000

/-- The kinds of site multiplets in `op_ISO2LR_2ch_triplet`. -/
def plan_ISO2LR_2ch_triplet : Plan where
  mts := [
    ⟨[1, 1, 1], [[0, 0, 1]], [[(0, 0, 0)], [(0, 0, 0)], [(0, 0, 0)]]⟩,
    ⟨[1, 3, 1], [[0, -2, 1], [0, 0, 1], [0, 2, 1]], [[(0, 0, 39), (0, 1, 40), (1, 0, 41), (1, 1, 42), (1, 2, 43), (2, 1, 44), (2, 2, 45)], [(0, 0, 48), (1, 0, 49), (1, 1, 45), (2, 0, 50), (2, 1, 51), (2, 2, 0)], [(0, 0, 19), (0, 1, 53), (0, 2, 54), (1, 1, 55), (1, 2, 56), (2, 2, 57)]]⟩,
    ⟨[2, 2, 1], [[-1, -1, 1], [-1, 1, 1]], [[(0, 0, 46), (0, 1, 22), (1, 0, 2), (1, 1, 47)], [(0, 0, 52), (1, 0, 4), (1, 1, 0)], [(0, 0, 58), (0, 1, 20), (1, 1, 60)]]⟩,
    ⟨[2, 2, 1], [[1, -1, 1], [1, 1, 1]], [[(0, 0, 46), (0, 1, 22), (1, 0, 2), (1, 1, 47)], [(0, 0, 52), (1, 0, 4), (1, 1, 0)], [(0, 0, 58), (0, 1, 59), (1, 1, 61)]]⟩,
    ⟨[3, 1, 1], [[-2, 0, 1]], [[(0, 0, 14)], [(0, 0, 14)], [(0, 0, 14)]]⟩,
    ⟨[3, 1, 1], [[0, 0, 1]], [[(0, 0, 0)], [(0, 0, 0)], [(0, 0, 0)]]⟩,
    ⟨[3, 1, 1], [[2, 0, 1]], [[(0, 0, 0)], [(0, 0, 0)], [(0, 0, 0)]]⟩]
  inst := [
    (0, [0, 0, 1]), (0, [0, 0, 1]), (1, [0, 0, -1]), (2, [0, 0, -1]), (3, [0, 0, -1]), (2, [0, 0, 1]),
    (3, [0, 0, 1]), (4, [0, 0, 1]), (5, [0, 0, 1]), (6, [0, 0, 1])]
  loc := 0x240020001c00181014101800140010100c1010000c000820081008000400000

/-- The kinds of site multiplets in `op_ISOSZ_1ch_doublet`. -/
def plan_ISOSZ_1ch_doublet : Plan where
  mts := [

    ⟨[2, 0], [[-1, 0], [1, 0]], [[(0, 0, 0), (0, 1, 1), (1, 1, 2)], [(0, 0, 0), (0, 1, 1), (1, 1, 2)], [(0, 0, 2), (1, 0, 4), (1, 1, 0)], [(0, 0, 2), (1, 0, 4), (1, 1, 0)]]⟩,
    ⟨[1, 0], [[0, 0]], [[(0, 0, 3)], [(0, 0, 3)], [(0, 0, 3)], [(0, 0, 3)]]⟩]
  inst := [
    (0, [0, 0]), (1, [0, -1]), (1, [0, 1])]
  loc := 0x80004000010000

/-- The kinds of site multiplets in `op_ISOSZ_2ch_doublet`. -/
def plan_ISOSZ_2ch_doublet : Plan where
  mts := [

    ⟨[3, 0], [[-2, 0], [0, 0], [2, 0]], [[(0, 0, 0), (0, 1, 5), (1, 1, 6), (1, 2, 7), (2, 2, 8)], [(0, 0, 0), (0, 1, 5), (1, 1, 6), (1, 2, 7), (2, 2, 8)], [(0, 0, 10), (1, 0, 11), (1, 1, 12), (2, 1, 13), (2, 2, 0)], [(0, 0, 10), (1, 0, 11), (1, 1, 12), (2, 1, 13), (2, 2, 0)]]⟩,
    ⟨[2, 0], [[-1, 0], [1, 0]], [[(0, 0, 3), (0, 1, 4), (1, 1, 9)], [(0, 0, 3), (0, 1, 4), (1, 1, 9)], [(0, 0, 9), (1, 0, 1), (1, 1, 3)], [(0, 0, 9), (1, 0, 1), (1, 1, 3)]]⟩,
    ⟨[1, 0], [[0, 0]], [[(0, 0, 0)], [(0, 0, 0)], [(0, 0, 0)], [(0, 0, 0)]]⟩]
  inst := [
    (0, [0, 0]), (1, [0, -1]), (1, [0, -1]), (1, [0, 1]), (1, [0, 1]), (2, [0, -2]), (2, [0, 0]), (2, [0, 0]),
    (2, [0, 0]), (2, [0, 2])]
  loc := 0x240020001c0018001400101010000c100c00081008000410040000200010000

/-- The kinds of site multiplets in `op_ISOSZ_1ch_triplet`. -/
def plan_ISOSZ_1ch_triplet : Plan where
  mts := [
    ⟨[2, 0], [[-1, 0]], [[(0, 0, 0)], [(0, 0, 0)], [(0, 0, 0)]]⟩,
    ⟨[2, 0], [[1, 0]], [[(0, 0, 0)], [(0, 0, 0)], [(0, 0, 0)]]⟩,
    ⟨[1, 0], [[0, 0]], [[(0, 0, 0)], [(0, 0, 0)], [(0, 0, 0)]]⟩]
  inst := [
    (0, [0, 0]), (1, [0, 0]), (2, [0, -1]), (2, [0, 1])]
  loc := 0xc0008000400000

/-- The kinds of site multiplets in `op_ISOSZ_2ch_triplet`. -/
def plan_ISOSZ_2ch_triplet : Plan where
  mts := [
    ⟨[3, 0], [[-2, 0]], [[(0, 0, 0)], [(0, 0, 0)], [(0, 0, 0)]]⟩,
    ⟨[3, 0], [[0, 0]], [[(0, 0, 0)], [(0, 0, 0)], [(0, 0, 0)]]⟩,
    ⟨[3, 0], [[2, 0]], [[(0, 0, 0)], [(0, 0, 0)], [(0, 0, 0)]]⟩,
    ⟨[2, 0], [[-1, 0]], [[(0, 0, 0)], [(0, 0, 0)], [(0, 0, 0)]]⟩,
    ⟨[2, 0], [[1, 0]], [[(0, 0, 0)], [(0, 0, 0)], [(0, 0, 0)]]⟩,
    ⟨[1, 0], [[0, 0]], [[(0, 0, 0)], [(0, 0, 0)], [(0, 0, 0)]]⟩]
  inst := [
    (0, [0, 0]), (1, [0, 0]), (2, [0, 0]), (3, [0, -1]), (4, [0, -1]), (3, [0, -1]), (4, [0, -1]),
    (3, [0, 1]), (4, [0, 1]), (3, [0, 1]), (4, [0, 1]), (5, [0, -2]), (5, [0, 0]), (5, [0, 0]), (5, [0, 0]),
    (5, [0, 2])]
  loc := 0x3c003800340030002c002800240020001c001800140010000c0008000400000

/-- The kinds of site multiplets in `op_ISOSZLR_2ch_doublet`. -/
def plan_ISOSZLR_2ch_doublet : Plan where
  mts := [
    ⟨[1, 0, 1], [[0, 0, 1]], [[(0, 0, 0)], [(0, 0, 0)], [(0, 0, 0)], [(0, 0, 0)]]⟩,
    ⟨[2, 0, 1], [[-1, 0, 1], [1, 0, 1]], [[(0, 0, 1), (0, 1, 2), (1, 1, 3)], [(0, 0, 1), (0, 1, 2), (1, 1, 3)], [(0, 0, 3), (1, 0, 8), (1, 1, 1)], [(0, 0, 3), (1, 0, 8), (1, 1, 1)]]⟩,
    ⟨[3, 0, 1], [[-2, 0, 1], [0, 0, 1], [2, 0, 1]], [[(0, 0, 0), (0, 1, 4), (1, 1, 5), (1, 2, 6), (2, 2, 7)], [(0, 0, 0), (0, 1, 4), (1, 1, 5), (1, 2, 6), (2, 2, 7)], [(0, 0, 9), (1, 0, 10), (1, 1, 11), (2, 1, 12), (2, 2, 0)], [(0, 0, 9), (1, 0, 10), (1, 1, 11), (2, 1, 12), (2, 2, 0)]]⟩]
  inst := [
    (0, [0, 2, -1]), (0, [0, 0, -1]), (0, [0, 0, -1]), (0, [0, 0, 1]), (0, [0, -2, -1]), (1, [0, 1, -1]),
    (1, [0, 1, 1]), (1, [0, -1, -1]), (1, [0, -1, 1]), (2, [0, 0, 1])]
  loc := 0x242024102400201020001c101c00181018001410140010000c0008000400000

/-- The kinds of site multiplets in `op_ISOSZLR_2ch_triplet`. -/
def plan_ISOSZLR_2ch_triplet : Plan where
  mts := [
    ⟨[1, 0, 1], [[0, 0, 1]], [[(0, 0, 0)], [(0, 0, 0)], [(0, 0, 0)]]⟩,
    ⟨[2, 0, 1], [[-1, 0, 1]], [[(0, 0, 0)], [(0, 0, 0)], [(0, 0, 0)]]⟩,
    ⟨[2, 0, 1], [[1, 0, 1]], [[(0, 0, 0)], [(0, 0, 0)], [(0, 0, 0)]]⟩,
    ⟨[3, 0, 1], [[-2, 0, 1]], [[(0, 0, 0)], [(0, 0, 0)], [(0, 0, 0)]]⟩,
    ⟨[3, 0, 1], [[0, 0, 1]], [[(0, 0, 0)], [(0, 0, 0)], [(0, 0, 0)]]⟩,
    ⟨[3, 0, 1], [[2, 0, 1]], [[(0, 0, 0)], [(0, 0, 0)], [(0, 0, 0)]]⟩]
  inst := [
    (0, [0, 2, -1]), (0, [0, 0, -1]), (0, [0, 0, -1]), (0, [0, 0, 1]), (0, [0, -2, -1]), (1, [0, 1, -1]),
    (2, [0, 1, -1]), (1, [0, 1, 1]), (2, [0, 1, 1]), (1, [0, -1, -1]), (2, [0, -1, -1]), (1, [0, -1, 1]),
    (2, [0, -1, 1]), (3, [0, 0, 1]), (4, [0, 0, 1]), (5, [0, 0, 1])]
  loc := 0x3c003800340030002c002800240020001c001800140010000c0008000400000

/-- The kinds of site multiplets in `op_NONE_1ch_doublet`. -/
def plan_NONE_1ch_doublet : Plan where
  mts := [
    ⟨[0], [[0]], [[(0, 0, 0)]]⟩, ⟨[0], [[0]], [[(0, 0, 1)]]⟩]
  inst := [
    (0, [0]), (1, [0]), (1, [0]), (0, [0])]
  loc := 0xc0008000400000

/-- The kinds of site multiplets in `op_NONE_2ch_doublet`. -/
def plan_NONE_2ch_doublet : Plan where
  mts := [
    ⟨[0], [[0]], [[(0, 0, 0)]]⟩, ⟨[0], [[0]], [[(0, 0, 1)]]⟩]
  inst := [
    (0, [0]), (1, [0]), (1, [0]), (0, [0]), (1, [0]), (0, [0]), (0, [0]), (1, [0]), (1, [0]), (0, [0]),
    (0, [0]), (1, [0]), (0, [0]), (1, [0]), (1, [0]), (0, [0])]
  loc := 0x3c003800340030002c002800240020001c001800140010000c0008000400000

/-- The kinds of site multiplets in `op_P_1ch_doublet`. -/
def plan_P_1ch_doublet : Plan where
  mts := [
    ⟨[1], [[1]], [[(0, 0, 0)]]⟩]
  inst := [
    (0, [-1]), (0, [-1]), (0, [1]), (0, [1])]
  loc := 0xc0008000400000

/-- The kinds of site multiplets in `op_P_2ch_doublet`. -/
def plan_P_2ch_doublet : Plan where
  mts := [
    ⟨[1], [[1]], [[(0, 0, 0)]]⟩]
  inst := [
    (0, [-1]), (0, [-1]), (0, [-1]), (0, [-1]), (0, [-1]), (0, [-1]), (0, [-1]), (0, [-1]), (0, [1]),
    (0, [1]), (0, [1]), (0, [1]), (0, [1]), (0, [1]), (0, [1]), (0, [1])]
  loc := 0x3c003800340030002c002800240020001c001800140010000c0008000400000

/-- The kinds of site multiplets in `op_QSLR_2ch_doublet`. -/
def plan_QSLR_2ch_doublet : Plan where
  mts := [
    ⟨[0, 1, 1], [[0, 0, 1]], [[(0, 0, 0)], [(0, 0, 0)]]⟩,
    ⟨[0, 2, 1], [[0, -1, 1], [0, 1, 1]], [[(0, 0, 1), (1, 0, 2), (1, 1, 3)], [(0, 0, 3), (0, 1, 8), (1, 1, 1)]]⟩,
    ⟨[0, 3, 1], [[0, -2, 1], [0, 0, 1], [0, 2, 1]], [[(0, 0, 4), (1, 0, 5), (1, 1, 6), (2, 1, 7), (2, 2, 0)], [(0, 0, 0), (0, 1, 9), (1, 1, 10), (1, 2, 11), (2, 2, 12)]]⟩]
  inst := [
    (0, [2, 0, 1]), (1, [1, 0, -1]), (1, [1, 0, 1]), (0, [0, 0, -1]), (0, [0, 0, 1]), (0, [0, 0, 1]),
    (2, [0, 0, -1]), (1, [-1, 0, -1]), (1, [-1, 0, 1]), (0, [-2, 0, 1])]
  loc := 0x2400201020001c101c00182018101800140010000c000810080004100400000

/-- The kinds of site multiplets in `op_QSLR_2ch_triplet`. -/
def plan_QSLR_2ch_triplet : Plan where
  mts := [
    ⟨[0, 1, 1], [[0, 0, 1]], [[(0, 0, 0)], [(0, 0, 0)], [(0, 0, 0)]]⟩,
    ⟨[0, 2, 1], [[0, -1, 1], [0, 1, 1]], [[(0, 0, 4), (0, 1, 11), (1, 0, 5), (1, 1, 13)], [(0, 0, 21), (1, 0, 22), (1, 1, 0)], [(0, 0, 0), (0, 1, 9), (1, 1, 27)]]⟩,
    ⟨[0, 3, 1], [[0, -2, 1], [0, 0, 1], [0, 2, 1]], [[(0, 0, 14), (0, 1, 15), (1, 0, 16), (1, 1, 17), (1, 2, 18), (2, 1, 19), (2, 2, 20)], [(0, 0, 23), (1, 0, 24), (1, 1, 20), (2, 0, 25), (2, 1, 26), (2, 2, 0)], [(0, 0, 0), (0, 1, 28), (0, 2, 29), (1, 1, 14), (1, 2, 15), (2, 2, 23)]]⟩]
  inst := [
    (0, [2, 0, 1]), (1, [1, 0, -1]), (1, [1, 0, 1]), (0, [0, 0, -1]), (0, [0, 0, 1]), (0, [0, 0, 1]),
    (2, [0, 0, -1]), (1, [-1, 0, -1]), (1, [-1, 0, 1]), (0, [-2, 0, 1])]
  loc := 0x2400201020001c101c00182018101800140010000c000810080004100400000

/-- The kinds of site multiplets in `op_QSTZ_3ch_doublet`. -/
def plan_QSTZ_3ch_doublet : Plan where
  mts := [
    ⟨[0, 1, 0], [[0, 0, 0]], [[(0, 0, 0)], [(0, 0, 0)], [(0, 0, 0)], [(0, 0, 0)], [(0, 0, 0)], [(0, 0, 0)]]⟩,
    ⟨[0, 2, 0], [[0, -1, 0], [0, 1, 0]], [[(0, 0, 1), (1, 0, 2), (1, 1, 3)], [(0, 0, 3), (0, 1, 14), (1, 1, 1)], [(0, 0, 1), (1, 0, 2), (1, 1, 3)], [(0, 0, 3), (0, 1, 14), (1, 1, 1)], [(0, 0, 1), (1, 0, 2), (1, 1, 3)], [(0, 0, 3), (0, 1, 14), (1, 1, 1)]]⟩,
    ⟨[0, 3, 0], [[0, -2, 0], [0, 0, 0], [0, 2, 0]], [[(0, 0, 4), (1, 0, 5), (1, 1, 6), (2, 1, 7), (2, 2, 0)], [(0, 0, 0), (0, 1, 15), (1, 1, 16), (1, 2, 17), (2, 2, 18)], [(0, 0, 4), (1, 0, 5), (1, 1, 6), (2, 1, 7), (2, 2, 0)], [(0, 0, 0), (0, 1, 15), (1, 1, 16), (1, 2, 17), (2, 2, 18)], [(0, 0, 4), (1, 0, 5), (1, 1, 6), (2, 1, 7), (2, 2, 0)], [(0, 0, 0), (0, 1, 15), (1, 1, 16), (1, 2, 17), (2, 2, 18)]]⟩,
    ⟨[0, 4, 0], [[0, -3, 0], [0, -1, 0], [0, 1, 0], [0, 3, 0]], [[(0, 0, 8), (1, 0, 9), (1, 1, 10), (2, 1, 11), (2, 2, 12), (3, 2, 13), (3, 3, 3)], [(0, 0, 3), (0, 1, 19), (1, 1, 20), (1, 2, 21), (2, 2, 22), (2, 3, 23), (3, 3, 24)], [(0, 0, 8), (1, 0, 9), (1, 1, 10), (2, 1, 11), (2, 2, 12), (3, 2, 13), (3, 3, 3)], [(0, 0, 3), (0, 1, 19), (1, 1, 20), (1, 2, 21), (2, 2, 22), (2, 3, 23), (3, 3, 24)], [(0, 0, 8), (1, 0, 9), (1, 1, 10), (2, 1, 11), (2, 2, 12), (3, 2, 13), (3, 3, 3)], [(0, 0, 3), (0, 1, 19), (1, 1, 20), (1, 2, 21), (2, 2, 22), (2, 3, 23), (3, 3, 24)]]⟩]
  inst := [
    (0, [3, 0, 0]), (1, [2, 0, 1]), (1, [2, 0, 0]), (1, [2, 0, -1]), (0, [1, 0, 2]), (0, [1, 0, 1]),
    (0, [1, 0, 0]), (0, [1, 0, 0]), (0, [1, 0, -1]), (0, [1, 0, -2]), (2, [1, 0, 1]), (2, [1, 0, 0]),
    (2, [1, 0, -1]), (1, [0, 0, 2]), (1, [0, 0, 1]), (1, [0, 0, 1]), (1, [0, 0, 0]), (1, [0, 0, 0]),
    (1, [0, 0, -1]), (1, [0, 0, -1]), (1, [0, 0, -2]), (3, [0, 0, 0]), (0, [-1, 0, 2]), (0, [-1, 0, 1]),
    (0, [-1, 0, 0]), (0, [-1, 0, 0]), (0, [-1, 0, -1]), (0, [-1, 0, -2]), (2, [-1, 0, 1]), (2, [-1, 0, 0]),
    (2, [-1, 0, -1]), (1, [-2, 0, 1]), (1, [-2, 0, 0]), (1, [-2, 0, -1]), (0, [-3, 0, 0])]
  loc := 0x880084108400801080007c107c007820781078007420741074007020701070006c006800640060005c0058005430542054105400501050004c104c004810480044104400401040003c103c0038103800341034003020301030002c202c102c00282028102800240020001c001800140010000c100c000810080004100400000

/-- The kinds of site multiplets in `op_QSTZ_3ch_triplet`. -/
def plan_QSTZ_3ch_triplet : Plan where
  mts := [
    ⟨[0, 1, 0], [[0, 0, 0]], [[(0, 0, 0)], [(0, 0, 0)], [(0, 0, 0)]]⟩,
    ⟨[0, 2, 0], [[0, -1, 0], [0, 1, 0]], [[(0, 0, 4), (0, 1, 25), (1, 0, 5), (1, 1, 26)], [(0, 0, 44), (1, 0, 45), (1, 1, 0)], [(0, 0, 0), (0, 1, 15), (1, 1, 60)]]⟩,
    ⟨[0, 3, 0], [[0, -2, 0], [0, 0, 0], [0, 2, 0]], [[(0, 0, 27), (0, 1, 28), (1, 0, 29), (1, 1, 30), (1, 2, 31), (2, 1, 32), (2, 2, 33)], [(0, 0, 46), (1, 0, 47), (1, 1, 48), (2, 0, 49), (2, 1, 50), (2, 2, 0)], [(0, 0, 0), (0, 1, 61), (0, 2, 62), (1, 1, 63), (1, 2, 28), (2, 2, 64)]]⟩,
    ⟨[0, 4, 0], [[0, -3, 0], [0, -1, 0], [0, 1, 0], [0, 3, 0]], [[(0, 0, 34), (0, 1, 35), (1, 0, 36), (1, 1, 37), (1, 2, 38), (2, 1, 39), (2, 2, 40), (2, 3, 41), (3, 2, 42), (3, 3, 43)], [(0, 0, 51), (1, 0, 52), (1, 1, 53), (2, 0, 54), (2, 1, 55), (2, 2, 56), (3, 1, 57), (3, 2, 58), (3, 3, 59)], [(0, 0, 0), (0, 1, 65), (0, 2, 66), (1, 1, 34), (1, 2, 67), (1, 3, 54), (2, 2, 68), (2, 3, 69), (3, 3, 70)]]⟩]
  inst := [
    (0, [3, 0, 0]), (1, [2, 0, 1]), (1, [2, 0, 0]), (1, [2, 0, -1]), (0, [1, 0, 2]), (0, [1, 0, 1]),
    (0, [1, 0, 0]), (0, [1, 0, 0]), (0, [1, 0, -1]), (0, [1, 0, -2]), (2, [1, 0, 1]), (2, [1, 0, 0]),
    (2, [1, 0, -1]), (1, [0, 0, 2]), (1, [0, 0, 1]), (1, [0, 0, 1]), (1, [0, 0, 0]), (1, [0, 0, 0]),
    (1, [0, 0, -1]), (1, [0, 0, -1]), (1, [0, 0, -2]), (3, [0, 0, 0]), (0, [-1, 0, 2]), (0, [-1, 0, 1]),
    (0, [-1, 0, 0]), (0, [-1, 0, 0]), (0, [-1, 0, -1]), (0, [-1, 0, -2]), (2, [-1, 0, 1]), (2, [-1, 0, 0]),
    (2, [-1, 0, -1]), (1, [-2, 0, 1]), (1, [-2, 0, 0]), (1, [-2, 0, -1]), (0, [-3, 0, 0])]
  loc := 0x880084108400801080007c107c007820781078007420741074007020701070006c006800640060005c0058005430542054105400501050004c104c004810480044104400401040003c103c0038103800341034003020301030002c202c102c00282028102800240020001c001800140010000c100c000810080004100400000

/-- The kinds of site multiplets in `op_QSZ_1ch_doublet`. -/
def plan_QSZ_1ch_doublet : Plan where
  mts := [
    ⟨[0, 0], [[0, 0]], [[(0, 0, 0)], [(0, 0, 0)]]⟩, ⟨[0, 0], [[0, 0]], [[(0, 0, 1)], [(0, 0, 1)]]⟩]
  inst := [
    (0, [1, 0]), (1, [0, 1]), (1, [0, -1]), (0, [-1, 0])]
  loc := 0xc0008000400000

/-- The kinds of site multiplets in `op_QSZ_2ch_doublet`. -/
def plan_QSZ_2ch_doublet : Plan where
  mts := [
    ⟨[0, 0], [[0, 0]], [[(0, 0, 0)], [(0, 0, 0)]]⟩, ⟨[0, 0], [[0, 0]], [[(0, 0, 1)], [(0, 0, 1)]]⟩]
  inst := [
    (0, [2, 0]), (1, [1, 1]), (1, [1, 1]), (1, [1, -1]), (1, [1, -1]), (0, [0, 2]), (0, [0, 0]), (0, [0, 0]),
    (0, [0, 0]), (0, [0, 0]), (0, [0, -2]), (1, [-1, 1]), (1, [-1, 1]), (1, [-1, -1]), (1, [-1, -1]),
    (0, [-2, 0])]
  loc := 0x3c003800340030002c002800240020001c001800140010000c0008000400000

/-- The kinds of site multiplets in `op_QSZ_3ch_doublet`. -/
def plan_QSZ_3ch_doublet : Plan where
  mts := [
    ⟨[0, 0], [[0, 0]], [[(0, 0, 0)], [(0, 0, 0)]]⟩, ⟨[0, 0], [[0, 0]], [[(0, 0, 1)], [(0, 0, 1)]]⟩]
  inst := [
    (0, [3, 0]), (1, [2, 1]), (1, [2, 1]), (1, [2, 1]), (1, [2, -1]), (1, [2, -1]), (1, [2, -1]), (0, [1, 2]),
    (0, [1, 2]), (0, [1, 2]), (0, [1, 0]), (0, [1, 0]), (0, [1, 0]), (0, [1, 0]), (0, [1, 0]), (0, [1, 0]),
    (0, [1, 0]), (0, [1, 0]), (0, [1, 0]), (0, [1, -2]), (0, [1, -2]), (0, [1, -2]), (1, [0, 3]), (1, [0, 1]),
    (1, [0, 1]), (1, [0, 1]), (1, [0, 1]), (1, [0, 1]), (1, [0, 1]), (1, [0, 1]), (1, [0, 1]), (1, [0, 1]),
    (1, [0, -1]), (1, [0, -1]), (1, [0, -1]), (1, [0, -1]), (1, [0, -1]), (1, [0, -1]), (1, [0, -1]),
    (1, [0, -1]), (1, [0, -1]), (1, [0, -3]), (0, [-1, 2]), (0, [-1, 2]), (0, [-1, 2]), (0, [-1, 0]),
    (0, [-1, 0]), (0, [-1, 0]), (0, [-1, 0]), (0, [-1, 0]), (0, [-1, 0]), (0, [-1, 0]), (0, [-1, 0]),
    (0, [-1, 0]), (0, [-1, -2]), (0, [-1, -2]), (0, [-1, -2]), (1, [-2, 1]), (1, [-2, 1]), (1, [-2, 1]),
    (1, [-2, -1]), (1, [-2, -1]), (1, [-2, -1]), (0, [-3, 0])]
  loc := 0xfc00f800f400f000ec00e800e400e000dc00d800d400d000cc00c800c400c000bc00b800b400b000ac00a800a400a0009c009800940090008c008800840080007c007800740070006c006800640060005c005800540050004c004800440040003c003800340030002c002800240020001c001800140010000c0008000400000

/-- The kinds of site multiplets in `op_QSZ_1ch_triplet`. -/
def plan_QSZ_1ch_triplet : Plan where
  mts := [
    ⟨[0, 0], [[0, 0]], [[(0, 0, 0)], [(0, 0, 0)], [(0, 0, 0)]]⟩]
  inst := [
    (0, [1, 0]), (0, [0, 1]), (0, [0, -1]), (0, [-1, 0])]
  loc := 0xc0008000400000

/-- The kinds of site multiplets in `op_QSZ_2ch_triplet`. -/
def plan_QSZ_2ch_triplet : Plan where
  mts := [
    ⟨[0, 0], [[0, 0]], [[(0, 0, 0)], [(0, 0, 0)], [(0, 0, 0)]]⟩]
  inst := [
    (0, [2, 0]), (0, [1, 1]), (0, [1, 1]), (0, [1, -1]), (0, [1, -1]), (0, [0, 2]), (0, [0, 0]), (0, [0, 0]),
    (0, [0, 0]), (0, [0, 0]), (0, [0, -2]), (0, [-1, 1]), (0, [-1, 1]), (0, [-1, -1]), (0, [-1, -1]),
    (0, [-2, 0])]
  loc := 0x3c003800340030002c002800240020001c001800140010000c0008000400000

/-- The kinds of site multiplets in `op_QSZTZ_3ch_doublet`. -/
def plan_QSZTZ_3ch_doublet : Plan where
  mts := [
    ⟨[0, 0, 0], [[0, 0, 0]], [[(0, 0, 0)], [(0, 0, 0)], [(0, 0, 0)], [(0, 0, 0)], [(0, 0, 0)], [(0, 0, 0)]]⟩,
    ⟨[0, 0, 0], [[0, 0, 0]], [[(0, 0, 1)], [(0, 0, 1)], [(0, 0, 1)], [(0, 0, 1)], [(0, 0, 1)], [(0, 0, 1)]]⟩]
  inst := [
    (0, [3, 0, 0]), (1, [2, 1, 1]), (1, [2, 1, 0]), (1, [2, 1, -1]), (1, [2, -1, 1]), (1, [2, -1, 0]),
    (1, [2, -1, -1]), (0, [1, 2, 1]), (0, [1, 2, 0]), (0, [1, 2, -1]), (0, [1, 0, 2]), (0, [1, 0, 1]),
    (0, [1, 0, 1]), (0, [1, 0, 0]), (0, [1, 0, 0]), (0, [1, 0, 0]), (0, [1, 0, -1]), (0, [1, 0, -1]),
    (0, [1, 0, -2]), (0, [1, -2, 1]), (0, [1, -2, 0]), (0, [1, -2, -1]), (1, [0, 3, 0]), (1, [0, 1, 2]),
    (1, [0, 1, 1]), (1, [0, 1, 1]), (1, [0, 1, 0]), (1, [0, 1, 0]), (1, [0, 1, 0]), (1, [0, 1, -1]),
    (1, [0, 1, -1]), (1, [0, 1, -2]), (1, [0, -1, 2]), (1, [0, -1, 1]), (1, [0, -1, 1]), (1, [0, -1, 0]),
    (1, [0, -1, 0]), (1, [0, -1, 0]), (1, [0, -1, -1]), (1, [0, -1, -1]), (1, [0, -1, -2]), (1, [0, -3, 0]),
    (0, [-1, 2, 1]), (0, [-1, 2, 0]), (0, [-1, 2, -1]), (0, [-1, 0, 2]), (0, [-1, 0, 1]), (0, [-1, 0, 1]),
    (0, [-1, 0, 0]), (0, [-1, 0, 0]), (0, [-1, 0, 0]), (0, [-1, 0, -1]), (0, [-1, 0, -1]), (0, [-1, 0, -2]),
    (0, [-1, -2, 1]), (0, [-1, -2, 0]), (0, [-1, -2, -1]), (1, [-2, 1, 1]), (1, [-2, 1, 0]), (1, [-2, 1, -1]),
    (1, [-2, -1, 1]), (1, [-2, -1, 0]), (1, [-2, -1, -1]), (0, [-3, 0, 0])]
  loc := 0xfc00f800f400f000ec00e800e400e000dc00d800d400d000cc00c800c400c000bc00b800b400b000ac00a800a400a0009c009800940090008c008800840080007c007800740070006c006800640060005c005800540050004c004800440040003c003800340030002c002800240020001c001800140010000c0008000400000

/-- The kinds of site multiplets in `op_SL_1ch_doublet`. -/
def plan_SL_1ch_doublet : Plan where
  mts := [
    ⟨[0], [[0]], [[(0, 0, 0)]]⟩, ⟨[0], [[0]], [[(0, 0, 1)]]⟩]
  inst := [
    (0, [1]), (1, [0])]
  loc := 0x400000

/-- The kinds of site multiplets in `op_SL_2ch_doublet`. -/
def plan_SL_2ch_doublet : Plan where
  mts := [
    ⟨[0], [[0]], [[(0, 0, 0)]]⟩, ⟨[0], [[0]], [[(0, 0, 1)]]⟩]
  inst := [
    (0, [2]), (1, [1]), (1, [1]), (0, [0])]
  loc := 0xc0008000400000

/-- The kinds of site multiplets in `op_SL_3ch_doublet`. -/
def plan_SL_3ch_doublet : Plan where
  mts := [
    ⟨[0], [[0]], [[(0, 0, 0)]]⟩, ⟨[0], [[0]], [[(0, 0, 1)]]⟩]
  inst := [
    (0, [3]), (1, [2]), (1, [2]), (1, [2]), (0, [1]), (0, [1]), (0, [1]), (1, [0])]
  loc := 0x1c001800140010000c0008000400000

/-- The kinds of site multiplets in `op_SL3_3ch_doublet`. -/
def plan_SL3_3ch_doublet : Plan where
  mts := [
    ⟨[0, 0, 0], [[0, 0, 0]], [[(0, 0, 0)]]⟩, ⟨[0, 0, 0], [[0, 0, 0]], [[(0, 0, 1)]]⟩]
  inst := [
    (0, [1, 1, 1]), (1, [1, 1, 0]), (1, [1, 0, 1]), (0, [1, 0, 0]), (1, [0, 1, 1]), (0, [0, 1, 0]),
    (0, [0, 0, 1]), (1, [0, 0, 0])]
  loc := 0x1c001800140010000c0008000400000

/-- The kinds of site multiplets in `op_SPSU2_1ch_doublet`. -/
def plan_SPSU2_1ch_doublet : Plan where
  mts := [
    ⟨[1], [[0]], [[(0, 0, 0)], [(0, 0, 0)]]⟩,
    ⟨[2], [[-1], [1]], [[(0, 0, 1), (1, 0, 2), (1, 1, 3)], [(0, 0, 3), (0, 1, 4), (1, 1, 1)]]⟩]
  inst := [
    (0, [0]), (0, [0]), (1, [0])]
  loc := 0x81008000400000

/-- The kinds of site multiplets in `op_SPSU2_2ch_doublet`. -/
def plan_SPSU2_2ch_doublet : Plan where
  mts := [
    ⟨[1], [[0]], [[(0, 0, 0)], [(0, 0, 0)]]⟩,
    ⟨[2], [[-1], [1]], [[(0, 0, 1), (1, 0, 2), (1, 1, 3)], [(0, 0, 3), (0, 1, 4), (1, 1, 1)]]⟩,
    ⟨[3], [[-2], [0], [2]], [[(0, 0, 5), (1, 0, 6), (1, 1, 7), (2, 1, 8), (2, 2, 0)], [(0, 0, 0), (0, 1, 9), (1, 1, 10), (1, 2, 11), (2, 2, 12)]]⟩]
  inst := [
    (0, [0]), (0, [0]), (0, [0]), (0, [0]), (0, [0]), (1, [0]), (1, [0]), (1, [0]), (1, [0]), (2, [0])]
  loc := 0x242024102400201020001c101c00181018001410140010000c0008000400000

/-- The kinds of site multiplets in `op_SPSU2_3ch_doublet`. -/
def plan_SPSU2_3ch_doublet : Plan where
  mts := [
    ⟨[1], [[0]], [[(0, 0, 0)], [(0, 0, 0)]]⟩,
    ⟨[2], [[-1], [1]], [[(0, 0, 1), (1, 0, 2), (1, 1, 3)], [(0, 0, 3), (0, 1, 4), (1, 1, 1)]]⟩,
    ⟨[3], [[-2], [0], [2]], [[(0, 0, 5), (1, 0, 6), (1, 1, 7), (2, 1, 8), (2, 2, 0)], [(0, 0, 0), (0, 1, 9), (1, 1, 10), (1, 2, 11), (2, 2, 12)]]⟩,
    ⟨[4], [[-3], [-1], [1], [3]], [[(0, 0, 13), (1, 0, 14), (1, 1, 15), (2, 1, 16), (2, 2, 17), (3, 2, 18), (3, 3, 3)], [(0, 0, 3), (0, 1, 19), (1, 1, 20), (1, 2, 21), (2, 2, 15), (2, 3, 22), (3, 3, 23)]]⟩]
  inst := [
    (0, [0]), (0, [0]), (0, [0]), (0, [0]), (0, [0]), (0, [0]), (0, [0]), (0, [0]), (0, [0]), (0, [0]),
    (0, [0]), (0, [0]), (0, [0]), (0, [0]), (1, [0]), (1, [0]), (1, [0]), (1, [0]), (1, [0]), (1, [0]),
    (1, [0]), (1, [0]), (1, [0]), (1, [0]), (1, [0]), (1, [0]), (1, [0]), (1, [0]), (2, [0]), (2, [0]),
    (2, [0]), (2, [0]), (2, [0]), (2, [0]), (3, [0])]
  loc := 0x88308820881088008420841084008020801080007c207c107c007820781078007420741074007020701070006c106c006810680064106400601060005c105c005810580054105400501050004c104c004810480044104400401040003c103c0038103800340030002c002800240020001c001800140010000c0008000400000

/-- The kinds of site multiplets in `op_SPSU2_1ch_triplet`. -/
def plan_SPSU2_1ch_triplet : Plan where
  mts := [
    ⟨[1], [[0]], [[(0, 0, 0)], [(0, 0, 0)], [(0, 0, 0)]]⟩,
    ⟨[2], [[-1], [1]], [[(0, 0, 5), (0, 1, 11), (1, 0, 6), (1, 1, 24)], [(0, 0, 25), (1, 0, 26), (1, 1, 0)], [(0, 0, 0), (0, 1, 9), (1, 1, 27)]]⟩]
  inst := [
    (0, [0]), (0, [0]), (1, [0])]
  loc := 0x81008000400000

/-- The kinds of site multiplets in `op_SPSU2_2ch_triplet`. -/
def plan_SPSU2_2ch_triplet : Plan where
  mts := [
    ⟨[1], [[0]], [[(0, 0, 0)], [(0, 0, 0)], [(0, 0, 0)]]⟩,
    ⟨[2], [[-1], [1]], [[(0, 0, 5), (0, 1, 11), (1, 0, 6), (1, 1, 24)], [(0, 0, 25), (1, 0, 26), (1, 1, 0)], [(0, 0, 0), (0, 1, 9), (1, 1, 27)]]⟩,
    ⟨[3], [[-2], [0], [2]], [[(0, 0, 28), (0, 1, 29), (1, 0, 30), (1, 1, 31), (1, 2, 32), (2, 1, 33), (2, 2, 34)], [(0, 0, 35), (1, 0, 36), (1, 1, 34), (2, 0, 37), (2, 1, 38), (2, 2, 0)], [(0, 0, 0), (0, 1, 39), (0, 2, 40), (1, 1, 28), (1, 2, 29), (2, 2, 35)]]⟩]
  inst := [
    (0, [0]), (0, [0]), (0, [0]), (0, [0]), (0, [0]), (1, [0]), (1, [0]), (1, [0]), (1, [0]), (2, [0])]
  loc := 0x242024102400201020001c101c00181018001410140010000c0008000400000

/-- The kinds of site multiplets in `op_SPU1_1ch_doublet`. -/
def plan_SPU1_1ch_doublet : Plan where
  mts := [
    ⟨[0], [[0]], [[(0, 0, 0)], [(0, 0, 0)]]⟩, ⟨[0], [[0]], [[(0, 0, 1)], [(0, 0, 1)]]⟩]
  inst := [
    (0, [1]), (1, [0]), (1, [0]), (0, [-1])]
  loc := 0xc0008000400000

/-- The kinds of site multiplets in `op_SPU1_2ch_doublet`. -/
def plan_SPU1_2ch_doublet : Plan where
  mts := [
    ⟨[0], [[0]], [[(0, 0, 1)], [(0, 0, 1)]]⟩, ⟨[0], [[0]], [[(0, 0, 0)], [(0, 0, 0)]]⟩]
  inst := [
    (0, [2]), (1, [1]), (1, [1]), (1, [1]), (1, [1]), (0, [0]), (0, [0]), (0, [0]), (0, [0]), (0, [0]),
    (0, [0]), (1, [-1]), (1, [-1]), (1, [-1]), (1, [-1]), (0, [-2])]
  loc := 0x3c003800340030002c002800240020001c001800140010000c0008000400000

/-- The kinds of site multiplets in `op_SPU1_1ch_triplet`. -/
def plan_SPU1_1ch_triplet : Plan where
  mts := [
    ⟨[0], [[0]], [[(0, 0, 1)], [(0, 0, 1)], [(0, 0, 1)]]⟩]
  inst := [
    (0, [1]), (0, [0]), (0, [0]), (0, [-1])]
  loc := 0xc0008000400000

/-- The kinds of site multiplets in `op_SPU1_2ch_triplet`. -/
def plan_SPU1_2ch_triplet : Plan where
  mts := [
    ⟨[0], [[0]], [[(0, 0, 1)], [(0, 0, 1)], [(0, 0, 1)]]⟩]
  inst := [
    (0, [2]), (0, [1]), (0, [1]), (0, [1]), (0, [1]), (0, [0]), (0, [0]), (0, [0]), (0, [0]), (0, [0]),
    (0, [0]), (0, [-1]), (0, [-1]), (0, [-1]), (0, [-1]), (0, [-2])]
  loc := 0x3c003800340030002c002800240020001c001800140010000c0008000400000

/-- The kinds of site multiplets in `op_SU2_1ch_doublet`. -/
def plan_SU2_1ch_doublet : Plan where
  mts := [
    ⟨[2], [[-1], [1]], [[(0, 0, 0), (0, 1, 1), (1, 1, 2)], [(0, 0, 2), (1, 0, 4), (1, 1, 0)]]⟩,
    ⟨[1], [[0]], [[(0, 0, 3)], [(0, 0, 3)]]⟩]
  inst := [
    (0, [0]), (1, [0]), (1, [0])]
  loc := 0x80004000010000

/-- The kinds of site multiplets in `op_SU2_2ch_doublet`. -/
def plan_SU2_2ch_doublet : Plan where
  mts := [

    ⟨[3], [[-2], [0], [2]], [[(0, 0, 0), (0, 1, 5), (1, 1, 6), (1, 2, 7), (2, 2, 8)], [(0, 0, 10), (1, 0, 11), (1, 1, 12), (2, 1, 13), (2, 2, 0)]]⟩,
    ⟨[2], [[-1], [1]], [[(0, 0, 3), (0, 1, 4), (1, 1, 9)], [(0, 0, 9), (1, 0, 1), (1, 1, 3)]]⟩,
    ⟨[1], [[0]], [[(0, 0, 0)], [(0, 0, 0)]]⟩]
  inst := [
    (0, [0]), (1, [0]), (1, [0]), (1, [0]), (1, [0]), (2, [0]), (2, [0]), (2, [0]), (2, [0]), (2, [0])]
  loc := 0x240020001c0018001400101010000c100c00081008000410040000200010000

/-- The kinds of site multiplets in `op_U1_1ch_doublet`. -/
def plan_U1_1ch_doublet : Plan where
  mts := [
    ⟨[0], [[0]], [[(0, 0, 0)]]⟩, ⟨[0], [[0]], [[(0, 0, 1)]]⟩]
  inst := [
    (0, [1]), (1, [0]), (1, [0]), (0, [-1])]
  loc := 0xc0008000400000

/-- The kinds of site multiplets in `op_U1_2ch_doublet`. -/
def plan_U1_2ch_doublet : Plan where
  mts := [
    ⟨[0], [[0]], [[(0, 0, 0)]]⟩, ⟨[0], [[0]], [[(0, 0, 1)]]⟩]
  inst := [
    (0, [2]), (1, [1]), (1, [1]), (1, [1]), (1, [1]), (0, [0]), (0, [0]), (0, [0]), (0, [0]), (0, [0]),
    (0, [0]), (1, [-1]), (1, [-1]), (1, [-1]), (1, [-1]), (0, [-2])]
  loc := 0x3c003800340030002c002800240020001c001800140010000c0008000400000

/-- The kinds of site multiplets in `op_U1_3ch_doublet`. -/
def plan_U1_3ch_doublet : Plan where
  mts := [
    ⟨[0], [[0]], [[(0, 0, 0)]]⟩, ⟨[0], [[0]], [[(0, 0, 1)]]⟩]
  inst := [
    (0, [3]), (1, [2]), (1, [2]), (1, [2]), (1, [2]), (1, [2]), (1, [2]), (0, [1]), (0, [1]), (0, [1]),
    (0, [1]), (0, [1]), (0, [1]), (0, [1]), (0, [1]), (0, [1]), (0, [1]), (0, [1]), (0, [1]), (0, [1]),
    (0, [1]), (0, [1]), (1, [0]), (1, [0]), (1, [0]), (1, [0]), (1, [0]), (1, [0]), (1, [0]), (1, [0]),
    (1, [0]), (1, [0]), (1, [0]), (1, [0]), (1, [0]), (1, [0]), (1, [0]), (1, [0]), (1, [0]), (1, [0]),
    (1, [0]), (1, [0]), (0, [-1]), (0, [-1]), (0, [-1]), (0, [-1]), (0, [-1]), (0, [-1]), (0, [-1]),
    (0, [-1]), (0, [-1]), (0, [-1]), (0, [-1]), (0, [-1]), (0, [-1]), (0, [-1]), (0, [-1]), (1, [-2]),
    (1, [-2]), (1, [-2]), (1, [-2]), (1, [-2]), (1, [-2]), (0, [-3])]
  loc := 0xfc00f800f400f000ec00e800e400e000dc00d800d400d000cc00c800c400c000bc00b800b400b000ac00a800a400a0009c009800940090008c008800840080007c007800740070006c006800640060005c005800540050004c004800440040003c003800340030002c002800240020001c001800140010000c0008000400000

end Verif.Coef
