import Verif.Coef.Plan
/-!
# The site multiplets in the operator tables (QJ)

Generated by `scripts/gen_plans.py`.
-/

namespace Verif.Coef

/-- The kinds of site multiplets in `op_QJ_3ch_doublet`. -/
def plan_QJ_3ch_doublet : Plan where
  mts := [
    ⟨[0, 1], [[0, 0]], [[(0, 0, 0)], [(0, 0, 0)]]⟩,
    ⟨[0, 2], [[0, -1], [0, 1]], [[(0, 0, 1), (1, 0, 2), (1, 1, 3)], [(0, 0, 3), (0, 1, 32), (1, 1, 1)]]⟩,
    ⟨[0, 4], [[0, -3], [0, -1], [0, 1], [0, 3]], [[(0, 0, 4), (1, 0, 5), (1, 1, 6), (2, 1, 7), (2, 2, 8), (3, 2, 9), (3, 3, 3)], [(0, 0, 3), (0, 1, 33), (1, 1, 34), (1, 2, 35), (2, 2, 6), (2, 3, 36), (3, 3, 37)]]⟩,
    ⟨[0, 3], [[0, -2], [0, 0], [0, 2]], [[(0, 0, 10), (1, 0, 11), (1, 1, 12), (2, 1, 13), (2, 2, 0)], [(0, 0, 0), (0, 1, 38), (1, 1, 39), (1, 2, 40), (2, 2, 41)]]⟩,
    ⟨[0, 5], [[0, -4], [0, -2], [0, 0], [0, 2], [0, 4]], [[(0, 0, 14), (1, 0, 15), (1, 1, 16), (2, 1, 17), (2, 2, 18), (3, 2, 19), (3, 3, 20), (4, 3, 21), (4, 4, 0)], [(0, 0, 0), (0, 1, 42), (1, 1, 43), (1, 2, 44), (2, 2, 45), (2, 3, 46), (3, 3, 47), (3, 4, 48), (4, 4, 49)]]⟩,
    ⟨[0, 6], [[0, -5], [0, -3], [0, -1], [0, 1], [0, 3], [0, 5]], [[(0, 0, 22), (1, 0, 23), (1, 1, 24), (2, 1, 25), (2, 2, 26), (3, 2, 27), (3, 3, 28), (4, 3, 29), (4, 4, 30), (5, 4, 31), (5, 5, 3)], [(0, 0, 3), (0, 1, 50), (1, 1, 51), (1, 2, 52), (2, 2, 24), (2, 3, 53), (3, 3, 26), (3, 4, 54), (4, 4, 55), (4, 5, 56), (5, 5, 57)]]⟩]
  inst := [
    (0, [3, 0]), (1, [2, 0]), (2, [2, 0]), (0, [1, 0]), (0, [1, 0]), (3, [1, 0]), (4, [1, 0]), (4, [1, 0]),
    (1, [0, 0]), (2, [0, 0]), (2, [0, 0]), (2, [0, 0]), (5, [0, 0]), (0, [-1, 0]), (0, [-1, 0]), (3, [-1, 0]),
    (4, [-1, 0]), (4, [-1, 0]), (1, [-2, 0]), (2, [-2, 0]), (0, [-3, 0])]
  loc := 0x50004c304c204c104c004810480044404430442044104400404040304020401040003c203c103c00380034003050304030303020301030002c302c202c102c0028302820281028002430242024102400201020001c401c301c201c101c001840183018201810180014201410140010000c00083008200810080004100400000

/-- The kinds of site multiplets in `op_QJ_3ch_quadruplet`. -/
def plan_QJ_3ch_quadruplet : Plan where
  mts := [
    ⟨[0, 1], [[0, 0]], [[(0, 0, 0)], [(0, 0, 0)], [(0, 0, 0)], [(0, 0, 0)]]⟩,
    ⟨[0, 2], [[0, -1], [0, 1]], [[(0, 0, 58), (1, 0, 9), (1, 1, 3)], [(0, 0, 6), (0, 1, 102), (1, 0, 7), (1, 1, 103)], [(0, 0, 4), (0, 1, 35), (1, 0, 5), (1, 1, 6)], [(0, 0, 3), (0, 1, 33), (1, 1, 213)]]⟩,
    ⟨[0, 4], [[0, -3], [0, -1], [0, 1], [0, 3]], [[(0, 0, 26), (1, 0, 59), (1, 1, 60), (2, 0, 61), (2, 1, 62), (2, 2, 63), (3, 0, 64), (3, 1, 65), (3, 2, 66), (3, 3, 3)], [(0, 0, 104), (0, 1, 105), (1, 0, 106), (1, 1, 107), (1, 2, 108), (2, 0, 109), (2, 1, 110), (2, 2, 111), (2, 3, 112), (3, 1, 113), (3, 2, 114), (3, 3, 63)], [(0, 0, 158), (0, 1, 159), (0, 2, 160), (1, 0, 161), (1, 1, 162), (1, 2, 163), (1, 3, 164), (2, 1, 165), (2, 2, 166), (2, 3, 167), (3, 2, 168), (3, 3, 169)], [(0, 0, 3), (0, 1, 214), (0, 2, 215), (0, 3, 216), (1, 1, 217), (1, 2, 218), (1, 3, 160), (2, 2, 219), (2, 3, 220), (3, 3, 221)]]⟩,
    ⟨[0, 3], [[0, -2], [0, 0], [0, 2]], [[(0, 0, 67), (1, 0, 68), (1, 1, 69), (2, 0, 70), (2, 1, 71), (2, 2, 0)], [(0, 0, 115), (0, 1, 116), (1, 0, 117), (1, 1, 118), (1, 2, 119), (2, 0, 120), (2, 1, 121), (2, 2, 122)], [(0, 0, 170), (0, 1, 171), (0, 2, 120), (1, 0, 172), (1, 1, 173), (1, 2, 174), (2, 1, 175), (2, 2, 176)], [(0, 0, 0), (0, 1, 222), (0, 2, 223), (1, 1, 224), (1, 2, 225), (2, 2, 226)]]⟩,
    ⟨[0, 5], [[0, -4], [0, -2], [0, 0], [0, 2], [0, 4]], [[(0, 0, 72), (1, 0, 73), (1, 1, 74), (2, 0, 75), (2, 1, 76), (2, 2, 77), (3, 0, 78), (3, 1, 79), (3, 2, 80), (3, 3, 81), (4, 1, 82), (4, 2, 83), (4, 3, 84), (4, 4, 0)], [(0, 0, 123), (0, 1, 124), (1, 0, 125), (1, 1, 126), (1, 2, 127), (2, 0, 128), (2, 1, 129), (2, 2, 130), (2, 3, 131), (3, 1, 132), (3, 2, 133), (3, 3, 134), (3, 4, 135), (4, 2, 136), (4, 3, 137), (4, 4, 81)], [(0, 0, 177), (0, 1, 178), (0, 2, 179), (1, 0, 180), (1, 1, 181), (1, 2, 182), (1, 3, 183), (2, 1, 184), (2, 2, 185), (2, 3, 186), (2, 4, 187), (3, 2, 188), (3, 3, 189), (3, 4, 190), (4, 3, 191), (4, 4, 192)], [(0, 0, 0), (0, 1, 227), (0, 2, 228), (0, 3, 229), (1, 1, 230), (1, 2, 231), (1, 3, 232), (1, 4, 233), (2, 2, 234), (2, 3, 235), (2, 4, 236), (3, 3, 237), (3, 4, 238), (4, 4, 239)]]⟩,
    ⟨[0, 6], [[0, -5], [0, -3], [0, -1], [0, 1], [0, 3], [0, 5]], [[(0, 0, 85), (1, 0, 86), (1, 1, 87), (2, 0, 88), (2, 1, 89), (2, 2, 90), (3, 0, 91), (3, 1, 92), (3, 2, 93), (3, 3, 94), (4, 1, 95), (4, 2, 96), (4, 3, 97), (4, 4, 98), (5, 2, 99), (5, 3, 100), (5, 4, 101), (5, 5, 3)], [(0, 0, 138), (0, 1, 139), (1, 0, 140), (1, 1, 141), (1, 2, 142), (2, 0, 143), (2, 1, 144), (2, 2, 145), (2, 3, 146), (3, 1, 147), (3, 2, 148), (3, 3, 149), (3, 4, 150), (4, 2, 151), (4, 3, 152), (4, 4, 153), (4, 5, 154), (5, 3, 155), (5, 4, 156), (5, 5, 157)], [(0, 0, 193), (0, 1, 194), (0, 2, 195), (1, 0, 196), (1, 1, 197), (1, 2, 198), (1, 3, 199), (2, 1, 200), (2, 2, 201), (2, 3, 202), (2, 4, 203), (3, 2, 204), (3, 3, 205), (3, 4, 206), (3, 5, 207), (4, 3, 208), (4, 4, 209), (4, 5, 210), (5, 4, 211), (5, 5, 212)], [(0, 0, 3), (0, 1, 240), (0, 2, 241), (0, 3, 242), (1, 1, 243), (1, 2, 244), (1, 3, 245), (1, 4, 246), (2, 2, 247), (2, 3, 248), (2, 4, 249), (2, 5, 250), (3, 3, 251), (3, 4, 252), (3, 5, 253), (4, 4, 254), (4, 5, 255), (5, 5, 256)]]⟩,
    ⟨[0, 5], [[0, -4], [0, -2], [0, 0], [0, 2], [0, 4]], [[(0, 0, 72), (1, 0, 73), (1, 1, 74), (2, 0, 75), (2, 1, 76), (2, 2, 77), (3, 0, 78), (3, 1, 79), (3, 2, 80), (3, 3, 81), (4, 1, 82), (4, 2, 83), (4, 3, 84), (4, 4, 0)], [(0, 0, 123), (0, 1, 124), (1, 0, 125), (1, 1, 126), (1, 2, 127), (2, 0, 128), (2, 1, 129), (2, 2, 130), (2, 3, 131), (3, 1, 132), (3, 2, 133), (3, 3, 134), (3, 4, 135), (4, 2, 136), (4, 3, 137), (4, 4, 81)], [(0, 0, 177), (0, 1, 178), (0, 2, 179), (1, 0, 180), (1, 1, 181), (1, 2, 182), (1, 3, 183), (2, 1, 184), (2, 2, 185), (2, 3, 186), (2, 4, 187), (3, 2, 188), (3, 3, 189), (3, 4, 190), (4, 3, 191), (4, 4, 192)], [(0, 0, 0), (0, 1, 227), (0, 2, 228), (0, 3, 229), (1, 1, 230), (1, 2, 231), (1, 3, 232), (1, 4, 233), (2, 2, 234), (2, 3, 235), (2, 4, 236), (3, 3, 257), (3, 4, 238), (4, 4, 239)]]⟩]
  inst := [
    (0, [3, 0]), (1, [2, 0]), (2, [2, 0]), (0, [1, 0]), (0, [1, 0]), (3, [1, 0]), (4, [1, 0]), (4, [1, 0]),
    (1, [0, 0]), (2, [0, 0]), (2, [0, 0]), (2, [0, 0]), (5, [0, 0]), (0, [-1, 0]), (0, [-1, 0]), (3, [-1, 0]),
    (6, [-1, 0]), (6, [-1, 0]), (1, [-2, 0]), (2, [-2, 0]), (0, [-3, 0])]
  loc := 0x50004c304c204c104c004810480044404430442044104400404040304020401040003c203c103c00380034003050304030303020301030002c302c202c102c0028302820281028002430242024102400201020001c401c301c201c101c001840183018201810180014201410140010000c00083008200810080004100400000

end Verif.Coef
