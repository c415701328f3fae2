import Verif.Coef.Plan
/-!
# The site multiplets in the operator tables (SPSU2T)

Generated by `scripts/gen_plans.py`.
-/

namespace Verif.Coef

/-- The kinds of site multiplets in `op_SPSU2T_3ch_triplet`. -/
def plan_SPSU2T_3ch_triplet : Plan where
  mts := [
    ⟨[1, 0], [[0, 0]], [[(0, 0, 0)], [(0, 0, 0)], [(0, 0, 0)]]⟩,
    ⟨[1, 2], [[0, -2]], [[(0, 0, 0)], [(0, 0, 0)], [(0, 0, 0)]]⟩,
    ⟨[1, 2], [[0, -1]], [[(0, 0, 0)], [(0, 0, 0)], [(0, 0, 0)]]⟩,
    ⟨[1, 2], [[0, 0]], [[(0, 0, 0)], [(0, 0, 0)], [(0, 0, 0)]]⟩,
    ⟨[1, 2], [[0, 1]], [[(0, 0, 0)], [(0, 0, 0)], [(0, 0, 0)]]⟩,
    ⟨[1, 2], [[0, 2]], [[(0, 0, 0)], [(0, 0, 0)], [(0, 0, 0)]]⟩,
    ⟨[2, 1], [[-1, -1], [1, -1]], [[(0, 0, 66), (0, 1, 486), (1, 0, 72), (1, 1, 487)], [(0, 0, 515), (1, 0, 84), (1, 1, 0)], [(0, 0, 0), (0, 1, 142), (1, 1, 537)]]⟩,
    ⟨[2, 1], [[-1, 0], [1, 0]], [[(0, 0, 478), (0, 1, 486), (1, 0, 72), (1, 1, 488)], [(0, 0, 515), (1, 0, 422), (1, 1, 0)], [(0, 0, 0), (0, 1, 142), (1, 1, 538)]]⟩,
    ⟨[2, 1], [[-1, 1], [1, 1]], [[(0, 0, 478), (0, 1, 486), (1, 0, 72), (1, 1, 489)], [(0, 0, 516), (1, 0, 84), (1, 1, 0)], [(0, 0, 0), (0, 1, 142), (1, 1, 539)]]⟩,
    ⟨[2, 2], [[-1, -2], [1, -2]], [[(0, 0, 66), (0, 1, 486), (1, 0, 72), (1, 1, 487)], [(0, 0, 515), (1, 0, 84), (1, 1, 0)], [(0, 0, 0), (0, 1, 142), (1, 1, 537)]]⟩,
    ⟨[2, 2], [[-1, -1], [1, -1]], [[(0, 0, 478), (0, 1, 152), (1, 0, 72), (1, 1, 488)], [(0, 0, 517), (1, 0, 422), (1, 1, 0)], [(0, 0, 0), (0, 1, 142), (1, 1, 542)]]⟩,
    ⟨[2, 2], [[-1, 0], [1, 0]], [[(0, 0, 478), (0, 1, 486), (1, 0, 72), (1, 1, 489)], [(0, 0, 518), (1, 0, 422), (1, 1, 0)], [(0, 0, 0), (0, 1, 142), (1, 1, 543)]]⟩,
    ⟨[2, 2], [[-1, 1], [1, 1]], [[(0, 0, 490), (0, 1, 152), (1, 0, 72), (1, 1, 492)], [(0, 0, 519), (1, 0, 521), (1, 1, 0)], [(0, 0, 0), (0, 1, 540), (1, 1, 543)]]⟩,
    ⟨[2, 2], [[-1, 2], [1, 2]], [[(0, 0, 491), (0, 1, 486), (1, 0, 493), (1, 1, 489)], [(0, 0, 520), (1, 0, 422), (1, 1, 0)], [(0, 0, 0), (0, 1, 541), (1, 1, 544)]]⟩,
    ⟨[3, 1], [[-2, -1], [0, -1], [2, -1]], [[(0, 0, 494), (0, 1, 495), (1, 0, 498), (1, 1, 499), (1, 2, 500), (2, 1, 501), (2, 2, 502)], [(0, 0, 522), (1, 0, 524), (1, 1, 525), (2, 0, 526), (2, 1, 527), (2, 2, 0)], [(0, 0, 0), (0, 1, 545), (0, 2, 546), (1, 1, 494), (1, 2, 495), (2, 2, 547)]]⟩,
    ⟨[3, 1], [[-2, 0], [0, 0], [2, 0]], [[(0, 0, 494), (0, 1, 495), (1, 0, 498), (1, 1, 499), (1, 2, 500), (2, 1, 503), (2, 2, 504)], [(0, 0, 522), (1, 0, 524), (1, 1, 504), (2, 0, 526), (2, 1, 527), (2, 2, 0)], [(0, 0, 0), (0, 1, 545), (0, 2, 546), (1, 1, 494), (1, 2, 495), (2, 2, 548)]]⟩,
    ⟨[3, 1], [[-2, 1], [0, 1], [2, 1]], [[(0, 0, 496), (0, 1, 497), (1, 0, 498), (1, 1, 499), (1, 2, 500), (2, 1, 501), (2, 2, 504)], [(0, 0, 523), (1, 0, 524), (1, 1, 504), (2, 0, 526), (2, 1, 527), (2, 2, 0)], [(0, 0, 0), (0, 1, 545), (0, 2, 546), (1, 1, 494), (1, 2, 495), (2, 2, 548)]]⟩,
    ⟨[4, 0], [[-3, 0], [-1, 0], [1, 0], [3, 0]], [[(0, 0, 505), (0, 1, 506), (1, 0, 507), (1, 1, 508), (1, 2, 509), (2, 1, 510), (2, 2, 511), (2, 3, 512), (3, 2, 513), (3, 3, 514)], [(0, 0, 528), (1, 0, 529), (1, 1, 530), (2, 0, 531), (2, 1, 532), (2, 2, 533), (3, 1, 534), (3, 2, 535), (3, 3, 536)], [(0, 0, 0), (0, 1, 549), (0, 2, 550), (1, 1, 505), (1, 2, 551), (1, 3, 531), (2, 2, 552), (2, 3, 553), (3, 3, 554)]]⟩]
  inst := [
    (0, [0, 0]), (0, [0, 0]), (0, [0, 0]), (0, [0, 0]), (1, [0, 0]), (2, [0, 0]), (3, [0, 0]), (4, [0, 0]),
    (5, [0, 0]), (1, [0, 0]), (2, [0, 0]), (3, [0, 0]), (4, [0, 0]), (5, [0, 0]), (6, [0, 0]), (7, [0, 0]),
    (8, [0, 0]), (6, [0, 0]), (7, [0, 0]), (8, [0, 0]), (6, [0, 0]), (7, [0, 0]), (8, [0, 0]), (9, [0, 0]),
    (10, [0, 0]), (11, [0, 0]), (12, [0, 0]), (13, [0, 0]), (14, [0, 0]), (15, [0, 0]), (16, [0, 0]),
    (14, [0, 0]), (15, [0, 0]), (16, [0, 0]), (17, [0, 0])]
  loc := 0x8830882088108800842080207c20841080107c10840080007c007820742070207810741070107800740070006c106810641060105c106c006800640060005c005810541050105800540050004c10481044104c004800440040103c10381040003c003800340030002c002800240020001c001800140010000c0008000400000

end Verif.Coef
