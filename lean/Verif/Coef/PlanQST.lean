import Verif.Coef.Plan
/-!
# The site multiplets in the operator tables (QST)

Generated by `scripts/gen_plans.py`.
-/

namespace Verif.Coef

/-- The kinds of site multiplets in `op_QST_3ch_doublet`. -/
def plan_QST_3ch_doublet : Plan where
  mts := [
    ⟨[0, 1, 0], [[0, 0, 0]], [[(0, 0, 0)], [(0, 0, 0)], [(0, 0, 0)], [(0, 0, 0)], [(0, 0, 0)], [(0, 0, 0)]]⟩,
    ⟨[0, 2, 1], [[0, -1, -1], [0, -1, 0], [0, -1, 1], [0, 1, -1], [0, 1, 0], [0, 1, 1]], [[(0, 0, 1), (0, 1, 2), (0, 2, 3), (1, 1, 4), (1, 2, 5), (2, 2, 6), (3, 0, 7), (3, 1, 8), (3, 2, 9), (3, 3, 10), (3, 4, 11), (3, 5, 12), (4, 1, 13), (4, 2, 14), (4, 4, 15), (4, 5, 16), (5, 2, 17), (5, 5, 18)], [(0, 0, 10), (0, 1, 11), (0, 2, 12), (0, 3, 98), (0, 4, 99), (0, 5, 100), (1, 1, 15), (1, 2, 16), (1, 4, 101), (1, 5, 102), (2, 2, 103), (2, 5, 104), (3, 3, 1), (3, 4, 2), (3, 5, 105), (4, 4, 106), (4, 5, 107), (5, 5, 108)], [(0, 0, 170), (0, 1, 5), (1, 0, 171), (1, 1, 172), (1, 2, 173), (2, 1, 174), (2, 2, 175), (3, 0, 13), (3, 1, 14), (3, 3, 176), (3, 4, 16), (4, 0, 99), (4, 1, 177), (4, 2, 178), (4, 3, 51), (4, 4, 179), (4, 5, 180), (5, 1, 181), (5, 2, 182), (5, 4, 183), (5, 5, 184)], [(0, 0, 15), (0, 1, 265), (0, 3, 101), (0, 4, 102), (1, 0, 51), (1, 1, 179), (1, 2, 266), (1, 3, 8), (1, 4, 267), (1, 5, 268), (2, 1, 269), (2, 2, 184), (2, 4, 270), (2, 5, 271), (3, 3, 170), (3, 4, 5), (4, 3, 272), (4, 4, 172), (4, 5, 173), (5, 4, 273), (5, 5, 274)], [(0, 0, 335), (1, 0, 336), (1, 1, 337), (2, 0, 338), (2, 1, 339), (2, 2, 1), (3, 0, 17), (3, 3, 18), (4, 0, 340), (4, 1, 341), (4, 3, 342), (4, 4, 343), (5, 0, 344), (5, 1, 268), (5, 2, 7), (5, 3, 345), (5, 4, 222), (5, 5, 10)], [(0, 0, 18), (0, 3, 415), (1, 0, 269), (1, 1, 184), (1, 3, 416), (1, 4, 271), (2, 0, 417), (2, 1, 222), (2, 2, 10), (2, 3, 418), (2, 4, 178), (2, 5, 98), (3, 3, 335), (4, 3, 419), (4, 4, 274), (5, 3, 420), (5, 4, 339), (5, 5, 1)]]⟩,
    ⟨[0, 1, 2], [[0, 0, -2], [0, 0, -1], [0, 0, 0], [0, 0, 1], [0, 0, 2]], [[(0, 0, 0), (0, 1, 19), (0, 2, 20), (1, 1, 21), (1, 2, 22), (1, 3, 23), (2, 2, 24), (2, 3, 25), (2, 4, 26), (3, 3, 27), (3, 4, 28), (4, 4, 29)], [(0, 0, 0), (0, 1, 19), (0, 2, 20), (1, 1, 21), (1, 2, 22), (1, 3, 23), (2, 2, 24), (2, 3, 25), (2, 4, 26), (3, 3, 27), (3, 4, 28), (4, 4, 29)], [(0, 0, 185), (0, 1, 186), (1, 0, 72), (1, 1, 187), (1, 2, 25), (2, 1, 188), (2, 2, 189), (2, 3, 190), (3, 2, 191), (3, 3, 192), (3, 4, 193), (4, 3, 194), (4, 4, 195)], [(0, 0, 185), (0, 1, 186), (1, 0, 72), (1, 1, 187), (1, 2, 25), (2, 1, 188), (2, 2, 189), (2, 3, 190), (3, 2, 191), (3, 3, 192), (3, 4, 193), (4, 3, 194), (4, 4, 195)], [(0, 0, 346), (1, 0, 347), (1, 1, 348), (2, 0, 349), (2, 1, 350), (2, 2, 351), (3, 1, 352), (3, 2, 353), (3, 3, 354), (4, 2, 355), (4, 3, 356), (4, 4, 0)], [(0, 0, 346), (1, 0, 347), (1, 1, 348), (2, 0, 349), (2, 1, 350), (2, 2, 421), (3, 1, 352), (3, 2, 422), (3, 3, 423), (4, 2, 355), (4, 3, 356), (4, 4, 0)]]⟩,
    ⟨[0, 3, 1], [[0, -2, -1], [0, -2, 0], [0, -2, 1], [0, 0, -1], [0, 0, 0], [0, 0, 1], [0, 2, -1], [0, 2, 0], [0, 2, 1]], [[(0, 0, 30), (0, 1, 31), (0, 2, 32), (1, 1, 33), (1, 2, 34), (2, 2, 35), (3, 0, 36), (3, 1, 37), (3, 2, 38), (3, 3, 39), (3, 4, 40), (3, 5, 41), (4, 1, 42), (4, 2, 43), (4, 4, 44), (4, 5, 45), (5, 2, 46), (5, 5, 47), (6, 3, 48), (6, 4, 49), (6, 5, 50), (6, 6, 0), (6, 7, 51), (6, 8, 52), (7, 4, 53), (7, 5, 54), (7, 7, 55), (7, 8, 56), (8, 5, 57), (8, 8, 58)], [(0, 0, 0), (0, 1, 51), (0, 2, 52), (0, 3, 109), (0, 4, 110), (0, 5, 111), (1, 1, 55), (1, 2, 112), (1, 4, 113), (1, 5, 114), (2, 2, 115), (2, 5, 116), (3, 3, 117), (3, 4, 118), (3, 5, 119), (3, 6, 120), (3, 7, 121), (3, 8, 122), (4, 4, 123), (4, 5, 124), (4, 7, 125), (4, 8, 126), (5, 5, 127), (5, 8, 128), (6, 6, 129), (6, 7, 130), (6, 8, 131), (7, 7, 132), (7, 8, 133), (8, 8, 134)], [(0, 0, 196), (0, 1, 197), (1, 0, 198), (1, 1, 199), (1, 2, 200), (2, 1, 201), (2, 2, 202), (3, 0, 203), (3, 1, 204), (3, 3, 205), (3, 4, 206), (4, 0, 207), (4, 1, 208), (4, 2, 209), (4, 3, 210), (4, 4, 211), (4, 5, 212), (5, 1, 213), (5, 2, 214), (5, 4, 215), (5, 5, 216), (6, 3, 217), (6, 4, 218), (6, 6, 55), (6, 7, 112), (7, 3, 121), (7, 4, 219), (7, 5, 220), (7, 6, 11), (7, 7, 221), (7, 8, 222), (8, 4, 223), (8, 5, 224), (8, 7, 225), (8, 8, 226)], [(0, 0, 55), (0, 1, 275), (0, 3, 276), (0, 4, 277), (1, 0, 11), (1, 1, 221), (1, 2, 222), (1, 3, 37), (1, 4, 278), (1, 5, 279), (2, 1, 280), (2, 2, 281), (2, 4, 282), (2, 5, 283), (3, 3, 284), (3, 4, 285), (3, 6, 286), (3, 7, 287), (4, 3, 288), (4, 4, 289), (4, 5, 290), (4, 6, 291), (4, 7, 292), (4, 8, 293), (5, 4, 294), (5, 5, 295), (5, 7, 296), (5, 8, 297), (6, 6, 298), (6, 7, 299), (7, 6, 300), (7, 7, 301), (7, 8, 302), (8, 7, 303), (8, 8, 304)], [(0, 0, 357), (1, 0, 358), (1, 1, 202), (2, 0, 359), (2, 1, 360), (2, 2, 361), (3, 0, 46), (3, 3, 362), (4, 0, 363), (4, 1, 364), (4, 3, 365), (4, 4, 366), (5, 0, 367), (5, 1, 279), (5, 2, 36), (5, 3, 368), (5, 4, 369), (5, 5, 370), (6, 3, 371), (6, 6, 372), (7, 3, 373), (7, 4, 374), (7, 6, 375), (7, 7, 281), (8, 3, 376), (8, 4, 293), (8, 5, 48), (8, 6, 377), (8, 7, 266), (8, 8, 0)], [(0, 0, 372), (0, 3, 424), (1, 0, 280), (1, 1, 281), (1, 3, 425), (1, 4, 426), (2, 0, 377), (2, 1, 266), (2, 2, 0), (2, 3, 427), (2, 4, 209), (2, 5, 109), (3, 3, 428), (3, 6, 429), (4, 3, 430), (4, 4, 431), (4, 6, 432), (4, 7, 433), (5, 3, 434), (5, 4, 435), (5, 5, 436), (5, 6, 437), (5, 7, 220), (5, 8, 120), (6, 6, 438), (7, 6, 439), (7, 7, 440), (8, 6, 441), (8, 7, 442), (8, 8, 443)]]⟩,
    ⟨[0, 2, 2], [[0, -1, -2], [0, -1, -1], [0, -1, 0], [0, -1, 1], [0, -1, 2], [0, 1, -2], [0, 1, -1], [0, 1, 0], [0, 1, 1], [0, 1, 2]], [[(0, 0, 1), (0, 1, 59), (0, 2, 60), (1, 1, 61), (1, 2, 62), (1, 3, 63), (2, 2, 64), (2, 3, 65), (2, 4, 66), (3, 3, 67), (3, 4, 68), (4, 4, 69), (5, 0, 7), (5, 1, 70), (5, 2, 71), (5, 5, 10), (5, 6, 72), (5, 7, 73), (6, 1, 74), (6, 2, 75), (6, 3, 76), (6, 6, 77), (6, 7, 78), (6, 8, 79), (7, 2, 80), (7, 3, 81), (7, 4, 82), (7, 7, 83), (7, 8, 84), (7, 9, 85), (8, 3, 86), (8, 4, 87), (8, 8, 88), (8, 9, 89), (9, 4, 90), (9, 9, 91)], [(0, 0, 10), (0, 1, 72), (0, 2, 135), (0, 5, 98), (0, 6, 136), (0, 7, 137), (1, 1, 138), (1, 2, 139), (1, 3, 79), (1, 6, 140), (1, 7, 141), (1, 8, 142), (2, 2, 143), (2, 3, 144), (2, 4, 145), (2, 7, 146), (2, 8, 147), (2, 9, 148), (3, 3, 149), (3, 4, 89), (3, 8, 150), (3, 9, 151), (4, 4, 152), (4, 9, 153), (5, 5, 1), (5, 6, 154), (5, 7, 155), (6, 6, 156), (6, 7, 157), (6, 8, 63), (7, 7, 158), (7, 8, 159), (7, 9, 160), (8, 8, 161), (8, 9, 162), (9, 9, 163)], [(0, 0, 227), (0, 1, 228), (1, 0, 229), (1, 1, 230), (1, 2, 231), (2, 1, 232), (2, 2, 233), (2, 3, 234), (3, 2, 235), (3, 3, 236), (3, 4, 237), (4, 3, 238), (4, 4, 239), (5, 0, 240), (5, 1, 241), (5, 5, 242), (5, 6, 243), (6, 0, 136), (6, 1, 244), (6, 2, 245), (6, 5, 246), (6, 6, 247), (6, 7, 248), (7, 1, 249), (7, 2, 250), (7, 3, 251), (7, 6, 252), (7, 7, 253), (7, 8, 254), (8, 2, 255), (8, 3, 256), (8, 4, 257), (8, 7, 258), (8, 8, 259), (8, 9, 260), (9, 3, 261), (9, 4, 262), (9, 8, 263), (9, 9, 264)], [(0, 0, 242), (0, 1, 243), (0, 5, 305), (0, 6, 306), (1, 0, 19), (1, 1, 307), (1, 2, 144), (1, 5, 70), (1, 6, 308), (1, 7, 309), (2, 1, 310), (2, 2, 253), (2, 3, 254), (2, 6, 311), (2, 7, 312), (2, 8, 313), (3, 2, 314), (3, 3, 259), (3, 4, 315), (3, 7, 316), (3, 8, 317), (3, 9, 318), (4, 3, 319), (4, 4, 320), (4, 8, 321), (4, 9, 322), (5, 5, 227), (5, 6, 323), (6, 5, 229), (6, 6, 324), (6, 7, 325), (7, 6, 326), (7, 7, 327), (7, 8, 328), (8, 7, 329), (8, 8, 330), (8, 9, 331), (9, 8, 332), (9, 9, 333)], [(0, 0, 378), (1, 0, 379), (1, 1, 380), (2, 0, 381), (2, 1, 382), (2, 2, 383), (3, 1, 384), (3, 2, 385), (3, 3, 386), (4, 2, 387), (4, 3, 388), (4, 4, 389), (5, 0, 390), (5, 5, 391), (6, 0, 392), (6, 1, 393), (6, 5, 394), (6, 6, 395), (7, 0, 396), (7, 1, 397), (7, 2, 398), (7, 5, 399), (7, 6, 400), (7, 7, 401), (8, 1, 402), (8, 2, 403), (8, 3, 404), (8, 6, 405), (8, 7, 406), (8, 8, 407), (9, 2, 408), (9, 3, 409), (9, 4, 410), (9, 7, 411), (9, 8, 412), (9, 9, 10)], [(0, 0, 391), (0, 5, 444), (1, 0, 445), (1, 1, 446), (1, 5, 447), (1, 6, 448), (2, 0, 449), (2, 1, 450), (2, 2, 451), (2, 5, 452), (2, 6, 316), (2, 7, 453), (3, 1, 405), (3, 2, 454), (3, 3, 407), (3, 6, 455), (3, 7, 456), (3, 8, 457), (4, 2, 411), (4, 3, 458), (4, 4, 10), (4, 7, 459), (4, 8, 257), (4, 9, 98), (5, 5, 378), (6, 5, 460), (6, 6, 461), (7, 5, 462), (7, 6, 463), (7, 7, 464), (8, 6, 384), (8, 7, 465), (8, 8, 386), (9, 7, 466), (9, 8, 467), (9, 9, 1)]]⟩,
    ⟨[0, 4, 0], [[0, -3, 0], [0, -1, 0], [0, 1, 0], [0, 3, 0]], [[(0, 0, 92), (1, 0, 93), (1, 1, 94), (2, 1, 95), (2, 2, 96), (3, 2, 97), (3, 3, 10)], [(0, 0, 10), (0, 1, 164), (1, 1, 165), (1, 2, 166), (2, 2, 167), (2, 3, 168), (3, 3, 169)], [(0, 0, 92), (1, 0, 93), (1, 1, 94), (2, 1, 95), (2, 2, 96), (3, 2, 97), (3, 3, 10)], [(0, 0, 10), (0, 1, 164), (1, 1, 165), (1, 2, 166), (2, 2, 167), (2, 3, 168), (3, 3, 169)], [(0, 0, 92), (1, 0, 93), (1, 1, 94), (2, 1, 95), (2, 2, 413), (3, 2, 414), (3, 3, 10)], [(0, 0, 10), (0, 1, 164), (1, 1, 165), (1, 2, 166), (2, 2, 167), (2, 3, 168), (3, 3, 169)]]⟩,
    ⟨[0, 3, 1], [[0, -2, -1], [0, -2, 0], [0, -2, 1], [0, 0, -1], [0, 0, 0], [0, 0, 1], [0, 2, -1], [0, 2, 0], [0, 2, 1]], [[(0, 0, 30), (0, 1, 31), (0, 2, 32), (1, 1, 33), (1, 2, 34), (2, 2, 35), (3, 0, 36), (3, 1, 37), (3, 2, 38), (3, 3, 39), (3, 4, 40), (3, 5, 41), (4, 1, 42), (4, 2, 43), (4, 4, 44), (4, 5, 45), (5, 2, 46), (5, 5, 47), (6, 3, 48), (6, 4, 49), (6, 5, 50), (6, 6, 0), (6, 7, 51), (6, 8, 52), (7, 4, 53), (7, 5, 54), (7, 7, 55), (7, 8, 56), (8, 5, 57), (8, 8, 58)], [(0, 0, 0), (0, 1, 51), (0, 2, 52), (0, 3, 109), (0, 4, 110), (0, 5, 111), (1, 1, 55), (1, 2, 112), (1, 4, 113), (1, 5, 114), (2, 2, 115), (2, 5, 116), (3, 3, 117), (3, 4, 118), (3, 5, 119), (3, 6, 120), (3, 7, 121), (3, 8, 122), (4, 4, 123), (4, 5, 124), (4, 7, 125), (4, 8, 126), (5, 5, 127), (5, 8, 128), (6, 6, 129), (6, 7, 130), (6, 8, 131), (7, 7, 132), (7, 8, 133), (8, 8, 134)], [(0, 0, 196), (0, 1, 197), (1, 0, 198), (1, 1, 199), (1, 2, 200), (2, 1, 201), (2, 2, 202), (3, 0, 203), (3, 1, 204), (3, 3, 205), (3, 4, 206), (4, 0, 207), (4, 1, 208), (4, 2, 209), (4, 3, 210), (4, 4, 211), (4, 5, 212), (5, 1, 213), (5, 2, 214), (5, 4, 215), (5, 5, 216), (6, 3, 217), (6, 4, 218), (6, 6, 55), (6, 7, 112), (7, 3, 121), (7, 4, 219), (7, 5, 220), (7, 6, 11), (7, 7, 221), (7, 8, 222), (8, 4, 223), (8, 5, 224), (8, 7, 225), (8, 8, 226)], [(0, 0, 55), (0, 1, 275), (0, 3, 276), (0, 4, 277), (1, 0, 11), (1, 1, 221), (1, 2, 222), (1, 3, 37), (1, 4, 278), (1, 5, 279), (2, 1, 280), (2, 2, 281), (2, 4, 282), (2, 5, 283), (3, 3, 284), (3, 4, 285), (3, 6, 286), (3, 7, 287), (4, 3, 334), (4, 4, 289), (4, 5, 290), (4, 6, 291), (4, 7, 292), (4, 8, 293), (5, 4, 294), (5, 5, 295), (5, 7, 296), (5, 8, 297), (6, 6, 298), (6, 7, 299), (7, 6, 300), (7, 7, 301), (7, 8, 302), (8, 7, 303), (8, 8, 304)], [(0, 0, 357), (1, 0, 358), (1, 1, 202), (2, 0, 359), (2, 1, 360), (2, 2, 361), (3, 0, 46), (3, 3, 362), (4, 0, 363), (4, 1, 364), (4, 3, 365), (4, 4, 366), (5, 0, 367), (5, 1, 279), (5, 2, 36), (5, 3, 368), (5, 4, 369), (5, 5, 370), (6, 3, 371), (6, 6, 372), (7, 3, 373), (7, 4, 374), (7, 6, 375), (7, 7, 281), (8, 3, 376), (8, 4, 293), (8, 5, 48), (8, 6, 377), (8, 7, 266), (8, 8, 0)], [(0, 0, 372), (0, 3, 424), (1, 0, 280), (1, 1, 281), (1, 3, 425), (1, 4, 426), (2, 0, 377), (2, 1, 266), (2, 2, 0), (2, 3, 427), (2, 4, 209), (2, 5, 109), (3, 3, 428), (3, 6, 429), (4, 3, 430), (4, 4, 431), (4, 6, 432), (4, 7, 433), (5, 3, 434), (5, 4, 435), (5, 5, 436), (5, 6, 437), (5, 7, 220), (5, 8, 120), (6, 6, 438), (7, 6, 439), (7, 7, 440), (8, 6, 441), (8, 7, 442), (8, 8, 443)]]⟩]
  inst := [
    (0, [3, 0, 0]), (1, [2, 0, 0]), (0, [1, 0, 0]), (2, [1, 0, 0]), (3, [1, 0, 0]), (1, [0, 0, 0]),
    (4, [0, 0, 0]), (5, [0, 0, 0]), (0, [-1, 0, 0]), (2, [-1, 0, 0]), (6, [-1, 0, 0]), (1, [-2, 0, 0]),
    (0, [-3, 0, 0])]
  loc := 0x30002c502c402c302c202c102c002880287028602850284028302820281028002440243024202410240020001c301c201c101c0018901880187018601850184018301820181018001450144014301420141014001080107010601050104010301020101010000c400c300c200c100c000800045004400430042004100400000

/-- The kinds of site multiplets in `op_QST_3ch_triplet`. -/
def plan_QST_3ch_triplet : Plan where
  mts := [
    ⟨[0, 1, 0], [[0, 0, 0]], [[(0, 0, 0)], [(0, 0, 0)], [(0, 0, 0)]]⟩,
    ⟨[0, 2, 1], [[0, -1, -1], [0, 1, -1]], [[(0, 0, 361), (0, 1, 120), (1, 0, 36), (1, 1, 39)], [(0, 0, 443), (1, 0, 48), (1, 1, 0)], [(0, 0, 0), (0, 1, 109), (1, 1, 361)]]⟩,
    ⟨[0, 2, 1], [[0, -1, 0], [0, 1, 0]], [[(0, 0, 361), (0, 1, 120), (1, 0, 469), (1, 1, 470)], [(0, 0, 443), (1, 0, 48), (1, 1, 0)], [(0, 0, 0), (0, 1, 109), (1, 1, 514)]]⟩,
    ⟨[0, 2, 1], [[0, -1, 1], [0, 1, 1]], [[(0, 0, 468), (0, 1, 120), (1, 0, 36), (1, 1, 443)], [(0, 0, 496), (1, 0, 48), (1, 1, 0)], [(0, 0, 0), (0, 1, 109), (1, 1, 361)]]⟩,
    ⟨[0, 1, 2], [[0, 0, -2]], [[(0, 0, 0)], [(0, 0, 0)], [(0, 0, 0)]]⟩,
    ⟨[0, 1, 2], [[0, 0, -1]], [[(0, 0, 0)], [(0, 0, 0)], [(0, 0, 0)]]⟩,
    ⟨[0, 1, 2], [[0, 0, 0]], [[(0, 0, 0)], [(0, 0, 0)], [(0, 0, 0)]]⟩,
    ⟨[0, 1, 2], [[0, 0, 1]], [[(0, 0, 0)], [(0, 0, 0)], [(0, 0, 0)]]⟩,
    ⟨[0, 1, 2], [[0, 0, 2]], [[(0, 0, 0)], [(0, 0, 0)], [(0, 0, 0)]]⟩,
    ⟨[0, 3, 1], [[0, -2, -1], [0, 0, -1], [0, 2, -1]], [[(0, 0, 471), (0, 1, 472), (1, 0, 476), (1, 1, 477), (1, 2, 478), (2, 1, 479), (2, 2, 480)], [(0, 0, 497), (1, 0, 479), (1, 1, 480), (2, 0, 502), (2, 1, 503), (2, 2, 0)], [(0, 0, 0), (0, 1, 515), (0, 2, 516), (1, 1, 471), (1, 2, 473), (2, 2, 518)]]⟩,
    ⟨[0, 3, 1], [[0, -2, 0], [0, 0, 0], [0, 2, 0]], [[(0, 0, 471), (0, 1, 473), (1, 0, 476), (1, 1, 477), (1, 2, 478), (2, 1, 479), (2, 2, 480)], [(0, 0, 497), (1, 0, 479), (1, 1, 499), (2, 0, 502), (2, 1, 503), (2, 2, 0)], [(0, 0, 0), (0, 1, 515), (0, 2, 516), (1, 1, 471), (1, 2, 473), (2, 2, 518)]]⟩,
    ⟨[0, 3, 1], [[0, -2, 1], [0, 0, 1], [0, 2, 1]], [[(0, 0, 474), (0, 1, 475), (1, 0, 476), (1, 1, 477), (1, 2, 478), (2, 1, 479), (2, 2, 480)], [(0, 0, 498), (1, 0, 500), (1, 1, 501), (2, 0, 502), (2, 1, 503), (2, 2, 0)], [(0, 0, 0), (0, 1, 515), (0, 2, 516), (1, 1, 471), (1, 2, 517), (2, 2, 497)]]⟩,
    ⟨[0, 2, 2], [[0, -1, -2], [0, 1, -2]], [[(0, 0, 361), (0, 1, 120), (1, 0, 36), (1, 1, 39)], [(0, 0, 443), (1, 0, 48), (1, 1, 0)], [(0, 0, 0), (0, 1, 109), (1, 1, 361)]]⟩,
    ⟨[0, 2, 2], [[0, -1, -1], [0, 1, -1]], [[(0, 0, 361), (0, 1, 120), (1, 0, 36), (1, 1, 484)], [(0, 0, 443), (1, 0, 48), (1, 1, 0)], [(0, 0, 0), (0, 1, 109), (1, 1, 361)]]⟩,
    ⟨[0, 2, 2], [[0, -1, 0], [0, 1, 0]], [[(0, 0, 481), (0, 1, 120), (1, 0, 36), (1, 1, 39)], [(0, 0, 443), (1, 0, 48), (1, 1, 0)], [(0, 0, 0), (0, 1, 109), (1, 1, 361)]]⟩,
    ⟨[0, 2, 2], [[0, -1, 1], [0, 1, 1]], [[(0, 0, 482), (0, 1, 120), (1, 0, 36), (1, 1, 39)], [(0, 0, 504), (1, 0, 48), (1, 1, 0)], [(0, 0, 0), (0, 1, 519), (1, 1, 521)]]⟩,
    ⟨[0, 2, 2], [[0, -1, 2], [0, 1, 2]], [[(0, 0, 483), (0, 1, 120), (1, 0, 36), (1, 1, 485)], [(0, 0, 505), (1, 0, 48), (1, 1, 0)], [(0, 0, 0), (0, 1, 520), (1, 1, 361)]]⟩,
    ⟨[0, 4, 0], [[0, -3, 0], [0, -1, 0], [0, 1, 0], [0, 3, 0]], [[(0, 0, 486), (0, 1, 487), (1, 0, 488), (1, 1, 489), (1, 2, 490), (2, 1, 491), (2, 2, 492), (2, 3, 493), (3, 2, 494), (3, 3, 495)], [(0, 0, 506), (1, 0, 507), (1, 1, 508), (2, 0, 509), (2, 1, 510), (2, 2, 511), (3, 1, 512), (3, 2, 513), (3, 3, 0)], [(0, 0, 0), (0, 1, 522), (0, 2, 523), (1, 1, 524), (1, 2, 525), (1, 3, 509), (2, 2, 526), (2, 3, 527), (3, 3, 528)]]⟩]
  inst := [
    (0, [3, 0, 0]), (1, [2, 0, 0]), (2, [2, 0, 0]), (3, [2, 0, 0]), (0, [1, 0, 0]), (4, [1, 0, 0]),
    (5, [1, 0, 0]), (6, [1, 0, 0]), (7, [1, 0, 0]), (8, [1, 0, 0]), (9, [1, 0, 0]), (10, [1, 0, 0]),
    (11, [1, 0, 0]), (1, [0, 0, 0]), (2, [0, 0, 0]), (3, [0, 0, 0]), (12, [0, 0, 0]), (13, [0, 0, 0]),
    (14, [0, 0, 0]), (15, [0, 0, 0]), (16, [0, 0, 0]), (17, [0, 0, 0]), (0, [-1, 0, 0]), (4, [-1, 0, 0]),
    (5, [-1, 0, 0]), (6, [-1, 0, 0]), (7, [-1, 0, 0]), (8, [-1, 0, 0]), (9, [-1, 0, 0]), (10, [-1, 0, 0]),
    (11, [-1, 0, 0]), (1, [-2, 0, 0]), (2, [-2, 0, 0]), (3, [-2, 0, 0]), (0, [-3, 0, 0])]
  loc := 0x8800841080107c10840080007c007820742070207810741070107800740070006c006800640060005c005800543054205410540050104c1048104410401050004c004800440040003c10381034103c003800340030202c20282030102c10281030002c002800240020001c001800140010000c10081004100c0008000400000

/-- The kinds of site multiplets in `op_QST_3ch_orbTriplet`. -/
def plan_QST_3ch_orbTriplet : Plan where
  mts := [
    ⟨[0, 1, 0], [[0, 0, 0]], [[(0, 0, 0)], [(0, 0, 0)], [(0, 0, 0)]]⟩,
    ⟨[0, 2, 1], [[0, -1, -1], [0, -1, 0], [0, -1, 1]], [[(0, 0, 55), (0, 1, 275), (1, 0, 11), (1, 1, 221), (1, 2, 222), (2, 1, 280), (2, 2, 281)], [(0, 0, 372), (1, 0, 280), (1, 1, 281), (2, 0, 377), (2, 1, 266), (2, 2, 0)], [(0, 0, 0), (0, 1, 51), (0, 2, 52), (1, 1, 55), (1, 2, 112), (2, 2, 115)]]⟩,
    ⟨[0, 2, 1], [[0, 1, -1], [0, 1, 0], [0, 1, 1]], [[(0, 0, 55), (0, 1, 112), (1, 0, 11), (1, 1, 221), (1, 2, 222), (2, 1, 280), (2, 2, 281)], [(0, 0, 372), (1, 0, 280), (1, 1, 281), (2, 0, 377), (2, 1, 266), (2, 2, 0)], [(0, 0, 0), (0, 1, 51), (0, 2, 52), (1, 1, 55), (1, 2, 56), (2, 2, 372)]]⟩,
    ⟨[0, 1, 2], [[0, 0, -2], [0, 0, -1], [0, 0, 0], [0, 0, 1], [0, 0, 2]], [[(0, 0, 185), (0, 1, 186), (1, 0, 72), (1, 1, 187), (1, 2, 25), (2, 1, 188), (2, 2, 189), (2, 3, 190), (3, 2, 191), (3, 3, 192), (3, 4, 193), (4, 3, 194), (4, 4, 195)], [(0, 0, 346), (1, 0, 347), (1, 1, 348), (2, 0, 349), (2, 1, 350), (2, 2, 351), (3, 1, 352), (3, 2, 353), (3, 3, 354), (4, 2, 355), (4, 3, 356), (4, 4, 0)], [(0, 0, 0), (0, 1, 19), (0, 2, 20), (1, 1, 21), (1, 2, 22), (1, 3, 23), (2, 2, 24), (2, 3, 25), (2, 4, 26), (3, 3, 27), (3, 4, 28), (4, 4, 29)]]⟩,
    ⟨[0, 3, 1], [[0, -2, -1], [0, -2, 0], [0, -2, 1]], [[(0, 0, 55), (0, 1, 275), (1, 0, 11), (1, 1, 221), (1, 2, 222), (2, 1, 280), (2, 2, 281)], [(0, 0, 372), (1, 0, 280), (1, 1, 281), (2, 0, 377), (2, 1, 266), (2, 2, 0)], [(0, 0, 0), (0, 1, 51), (0, 2, 52), (1, 1, 55), (1, 2, 112), (2, 2, 115)]]⟩,
    ⟨[0, 3, 1], [[0, 0, -1], [0, 0, 0], [0, 0, 1]], [[(0, 0, 55), (0, 1, 112), (1, 0, 11), (1, 1, 221), (1, 2, 222), (2, 1, 280), (2, 2, 529)], [(0, 0, 372), (1, 0, 280), (1, 1, 541), (2, 0, 377), (2, 1, 542), (2, 2, 0)], [(0, 0, 0), (0, 1, 51), (0, 2, 52), (1, 1, 552), (1, 2, 553), (2, 2, 554)]]⟩,
    ⟨[0, 3, 1], [[0, 2, -1], [0, 2, 0], [0, 2, 1]], [[(0, 0, 530), (0, 1, 531), (1, 0, 11), (1, 1, 221), (1, 2, 222), (2, 1, 280), (2, 2, 281)], [(0, 0, 543), (1, 0, 375), (1, 1, 544), (2, 0, 377), (2, 1, 266), (2, 2, 0)], [(0, 0, 0), (0, 1, 51), (0, 2, 52), (1, 1, 55), (1, 2, 555), (2, 2, 372)]]⟩,
    ⟨[0, 2, 2], [[0, -1, -2], [0, -1, -1], [0, -1, 0], [0, -1, 1], [0, -1, 2]], [[(0, 0, 185), (0, 1, 186), (1, 0, 72), (1, 1, 187), (1, 2, 25), (2, 1, 188), (2, 2, 189), (2, 3, 190), (3, 2, 191), (3, 3, 192), (3, 4, 193), (4, 3, 532), (4, 4, 354)], [(0, 0, 346), (1, 0, 347), (1, 1, 348), (2, 0, 349), (2, 1, 350), (2, 2, 421), (3, 1, 352), (3, 2, 422), (3, 3, 423), (4, 2, 355), (4, 3, 356), (4, 4, 0)], [(0, 0, 0), (0, 1, 19), (0, 2, 20), (1, 1, 21), (1, 2, 22), (1, 3, 23), (2, 2, 24), (2, 3, 25), (2, 4, 26), (3, 3, 27), (3, 4, 28), (4, 4, 556)]]⟩,
    ⟨[0, 2, 2], [[0, 1, -2], [0, 1, -1], [0, 1, 0], [0, 1, 1], [0, 1, 2]], [[(0, 0, 185), (0, 1, 533), (1, 0, 72), (1, 1, 534), (1, 2, 535), (2, 1, 188), (2, 2, 189), (2, 3, 536), (3, 2, 537), (3, 3, 192), (3, 4, 538), (4, 3, 539), (4, 4, 540)], [(0, 0, 346), (1, 0, 545), (1, 1, 546), (2, 0, 547), (2, 1, 548), (2, 2, 549), (3, 1, 352), (3, 2, 550), (3, 3, 551), (4, 2, 355), (4, 3, 356), (4, 4, 0)], [(0, 0, 0), (0, 1, 19), (0, 2, 20), (1, 1, 557), (1, 2, 558), (1, 3, 23), (2, 2, 24), (2, 3, 559), (2, 4, 26), (3, 3, 560), (3, 4, 561), (4, 4, 562)]]⟩,
    ⟨[0, 4, 0], [[0, -3, 0]], [[(0, 0, 0)], [(0, 0, 0)], [(0, 0, 0)]]⟩,
    ⟨[0, 4, 0], [[0, -1, 0]], [[(0, 0, 0)], [(0, 0, 0)], [(0, 0, 0)]]⟩,
    ⟨[0, 4, 0], [[0, 1, 0]], [[(0, 0, 0)], [(0, 0, 0)], [(0, 0, 0)]]⟩,
    ⟨[0, 4, 0], [[0, 3, 0]], [[(0, 0, 0)], [(0, 0, 0)], [(0, 0, 0)]]⟩]
  inst := [
    (0, [3, 0, 0]), (1, [2, 0, 0]), (2, [2, 0, 0]), (0, [1, 0, 0]), (3, [1, 0, 0]), (4, [1, 0, 0]),
    (5, [1, 0, 0]), (6, [1, 0, 0]), (1, [0, 0, 0]), (2, [0, 0, 0]), (7, [0, 0, 0]), (8, [0, 0, 0]),
    (9, [0, 0, 0]), (10, [0, 0, 0]), (11, [0, 0, 0]), (12, [0, 0, 0]), (0, [-1, 0, 0]), (3, [-1, 0, 0]),
    (4, [-1, 0, 0]), (5, [-1, 0, 0]), (6, [-1, 0, 0]), (1, [-2, 0, 0]), (2, [-2, 0, 0]), (0, [-3, 0, 0])]
  loc := 0x5c005820581058005420541054005020501050004c204c104c004820481048004440443044204410440040003c003800340030002c402c302c202c102c00284028302820281028002420241024002020201020001c201c101c00182018101800142014101400104010301020101010000c00082008100800042004100400000

end Verif.Coef
