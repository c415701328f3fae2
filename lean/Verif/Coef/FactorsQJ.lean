import Verif.Coef.Model
/-!
# The factors in the operator recalculation tables, class QJ

Generated by `scripts/gen_factors.py` from `c++/symmetry/coefnew/*/*.dat`.  The position of
an expression is the number `k` of `Verif.Oper.OpRow`.  `var i` is the quantum number at
position `i` of the label.  Decimal numbers are read as the fraction with a denominator up to
100 they stand for (`1.6666666666666667` as 5/3).
-/

namespace Verif.Coef

set_option maxRecDepth 20000 in
/-- The factors of class `QJ`. -/
def factors_QJ : List Ex := [
  .num 1 1,
  .div (.mul (.neg (.num 2 1)) (.sqrt (.mul (.var 1) (.add (.num 1 1) (.var 1))))) (.add (.num 1 1) (.mul (.num 2 1) (.var 1))),
  .div (.num 1 1) (.add (.num 1 1) (.mul (.num 2 1) (.var 1))),
  .neg (.num 1 1),
  .mul (.neg (.num 2 1)) (.sqrt (.div (.add (.neg (.num 1 1)) (.pow (.var 1) 2)) (.add (.neg (.num 1 1)) (.mul (.num 4 1) (.pow (.var 1) 2))))),
  .div (.sqrt (.num 3 1)) (.sqrt (.add (.neg (.num 1 1)) (.mul (.num 4 1) (.pow (.var 1) 2)))),
  .neg (.div (.sqrt (.add (.add (.neg (.num 3 1)) (.mul (.num 4 1) (.var 1))) (.mul (.num 4 1) (.pow (.var 1) 2)))) (.add (.num 1 1) (.mul (.num 2 1) (.var 1)))),
  .div (.num 2 1) (.add (.num 1 1) (.mul (.num 2 1) (.var 1))),
  .div (.mul (.mul (.var 1) (.sqrt (.div (.add (.num 4 1) (.mul (.num 4 1) (.var 1))) (.add (.var 1) (.mul (.num 2 1) (.pow (.var 1) 2)))))) (.sub (.sub (.sub (.mul (.sqrt (.div (.add (.add (.num 2 1) (.mul (.num 3 1) (.var 1))) (.pow (.var 1) 2)) (.add (.num 3 1) (.mul (.num 2 1) (.var 1))))) (.add (.add (.num 3 1) (.mul (.num 8 1) (.var 1))) (.mul (.num 4 1) (.pow (.var 1) 2)))) (.mul (.mul (.var 1) (.sqrt (.div (.add (.add (.num 2 1) (.mul (.num 3 1) (.var 1))) (.pow (.var 1) 2)) (.add (.num 3 1) (.mul (.num 2 1) (.var 1)))))) (.add (.add (.num 3 1) (.mul (.num 8 1) (.var 1))) (.mul (.num 4 1) (.pow (.var 1) 2))))) (.mul (.num 7 1) (.sqrt (.add (.add (.add (.num 6 1) (.mul (.num 13 1) (.var 1))) (.mul (.num 9 1) (.pow (.var 1) 2))) (.mul (.num 2 1) (.pow (.var 1) 3)))))) (.mul (.mul (.num 8 1) (.var 1)) (.sqrt (.add (.add (.add (.num 6 1) (.mul (.num 13 1) (.var 1))) (.mul (.num 9 1) (.pow (.var 1) 2))) (.mul (.num 2 1) (.pow (.var 1) 3))))))) (.mul (.pow (.add (.num 3 1) (.mul (.num 2 1) (.var 1))) 2) (.add (.add (.num 2 1) (.mul (.num 3 1) (.var 1))) (.pow (.var 1) 2))),
  .div (.sqrt (.num 3 1)) (.sqrt (.add (.add (.num 3 1) (.mul (.num 8 1) (.var 1))) (.mul (.num 4 1) (.pow (.var 1) 2)))),
  .sqrt (.div (.add (.add (.neg (.num 1 1)) (.var 1)) (.mul (.num 2 1) (.pow (.var 1) 2))) (.mul (.var 1) (.add (.num 1 1) (.mul (.num 2 1) (.var 1))))),
  .neg (.div (.num 1 1) (.sqrt (.mul (.var 1) (.add (.num 1 1) (.mul (.num 2 1) (.var 1)))))),
  .div (.add (.num 3 1) (.mul (.num 2 1) (.var 1))) (.sqrt (.mul (.add (.num 1 1) (.div (.num 1 1) (.var 1))) (.add (.add (.num 3 1) (.mul (.num 8 1) (.var 1))) (.mul (.num 4 1) (.pow (.var 1) 2))))),
  .neg (.div (.num 1 1) (.sqrt (.add (.add (.num 1 1) (.mul (.num 3 1) (.var 1))) (.mul (.num 2 1) (.pow (.var 1) 2))))),
  .sqrt (.div (.sub (.add (.num 3 1) (.var 1)) (.mul (.num 2 1) (.pow (.var 1) 2))) (.sub (.add (.num 1 1) (.var 1)) (.mul (.num 2 1) (.pow (.var 1) 2)))),
  .neg (.div (.sqrt (.num 2 1)) (.sqrt (.add (.sub (.neg (.num 1 1)) (.var 1)) (.mul (.num 2 1) (.pow (.var 1) 2))))),
  .div (.add (.add (.mul (.neg (.num 3 1)) (.sqrt (.add (.num 1 1) (.div (.num 1 1) (.var 1))))) (.sqrt (.mul (.var 1) (.add (.num 1 1) (.var 1))))) (.mul (.num 2 1) (.sqrt (.mul (.pow (.var 1) 3) (.add (.num 1 1) (.var 1)))))) (.sqrt (.add (.add (.sub (.sub (.neg (.num 3 1)) (.mul (.num 8 1) (.var 1))) (.pow (.var 1) 2)) (.mul (.num 8 1) (.pow (.var 1) 3))) (.mul (.num 4 1) (.pow (.var 1) 4)))),
  .neg (.div (.sqrt (.num 3 1)) (.sqrt (.mul (.var 1) (.add (.num 1 1) (.mul (.num 2 1) (.var 1)))))),
  .div (.mul (.add (.neg (.num 1 1)) (.mul (.num 2 1) (.var 1))) (.sqrt (.div (.add (.add (.num 2 1) (.mul (.num 5 1) (.var 1))) (.mul (.num 2 1) (.pow (.var 1) 2))) (.add (.add (.neg (.num 1 1)) (.var 1)) (.mul (.num 2 1) (.pow (.var 1) 2)))))) (.add (.num 1 1) (.mul (.num 2 1) (.var 1))),
  .neg (.div (.mul (.sqrt (.add (.num 3 1) (.div (.num 3 1) (.var 1)))) (.add (.add (.mul (.num 6 1) (.sqrt (.mul (.var 1) (.add (.add (.add (.num 6 1) (.mul (.num 19 1) (.var 1))) (.mul (.num 16 1) (.pow (.var 1) 2))) (.mul (.num 4 1) (.pow (.var 1) 3)))))) (.mul (.num 7 1) (.sqrt (.mul (.pow (.var 1) 3) (.add (.add (.add (.num 6 1) (.mul (.num 19 1) (.var 1))) (.mul (.num 16 1) (.pow (.var 1) 2))) (.mul (.num 4 1) (.pow (.var 1) 3))))))) (.mul (.num 2 1) (.sqrt (.mul (.pow (.var 1) 5) (.add (.add (.add (.num 6 1) (.mul (.num 19 1) (.var 1))) (.mul (.num 16 1) (.pow (.var 1) 2))) (.mul (.num 4 1) (.pow (.var 1) 3)))))))) (.mul (.add (.add (.num 1 1) (.mul (.num 3 1) (.var 1))) (.mul (.num 2 1) (.pow (.var 1) 2))) (.hpow (.add (.add (.num 6 1) (.mul (.num 7 1) (.var 1))) (.mul (.num 2 1) (.pow (.var 1) 2))) 1))),
  .mul (.sqrt (.add (.num 1 1) (.var 1))) (.add (.add (.add (.div (.add (.neg (.num 3 1)) (.mul (.num 2 1) (.var 1))) (.sqrt (.div (.mul (.mul (.pow (.add (.num 2 1) (.var 1)) 3) (.pow (.add (.num 3 1) (.mul (.num 2 1) (.var 1))) 2)) (.add (.num 5 1) (.mul (.num 2 1) (.var 1)))) (.mul (.var 1) (.add (.add (.num 1 1) (.mul (.num 3 1) (.var 1))) (.mul (.num 2 1) (.pow (.var 1) 2))))))) (.div (.mul (.mul (.num 6 1) (.var 1)) (.add (.neg (.num 1 1)) (.mul (.num 2 1) (.var 1)))) (.sqrt (.div (.mul (.mul (.mul (.var 1) (.pow (.add (.num 2 1) (.var 1)) 3)) (.pow (.add (.num 3 1) (.mul (.num 2 1) (.var 1))) 2)) (.add (.add (.num 5 1) (.mul (.num 7 1) (.var 1))) (.mul (.num 2 1) (.pow (.var 1) 2)))) (.add (.num 1 1) (.mul (.num 2 1) (.var 1))))))) (.div (.mul (.num 48 1) (.sqrt (.div (.var 1) (.add (.add (.add (.add (.num 10 1) (.mul (.num 39 1) (.var 1))) (.mul (.num 49 1) (.pow (.var 1) 2))) (.mul (.num 24 1) (.pow (.var 1) 3))) (.mul (.num 4 1) (.pow (.var 1) 4)))))) (.add (.add (.num 6 1) (.mul (.num 7 1) (.var 1))) (.mul (.num 2 1) (.pow (.var 1) 2))))) (.div (.mul (.mul (.num 9 1) (.var 1)) (.add (.neg (.num 1 1)) (.mul (.num 6 1) (.var 1)))) (.mul (.add (.add (.num 6 1) (.mul (.num 7 1) (.var 1))) (.mul (.num 2 1) (.pow (.var 1) 2))) (.sqrt (.mul (.var 1) (.add (.add (.add (.add (.num 10 1) (.mul (.num 39 1) (.var 1))) (.mul (.num 49 1) (.pow (.var 1) 2))) (.mul (.num 24 1) (.pow (.var 1) 3))) (.mul (.num 4 1) (.pow (.var 1) 4)))))))),
  .mul (.mul (.sqrt (.num 2 1)) (.sqrt (.add (.num 1 1) (.var 1)))) (.add (.add (.add (.add (.mul (.neg (.num 2 1)) (.sqrt (.div (.mul (.add (.num 1 1) (.var 1)) (.add (.num 1 1) (.mul (.num 2 1) (.var 1)))) (.mul (.add (.num 2 1) (.var 1)) (.pow (.add (.num 5 1) (.mul (.num 2 1) (.var 1))) 2))))) (.mul (.add (.neg (.num 3 1)) (.mul (.num 2 1) (.var 1))) (.sqrt (.div (.add (.add (.num 1 1) (.mul (.num 3 1) (.var 1))) (.mul (.num 2 1) (.pow (.var 1) 2))) (.mul (.pow (.add (.num 2 1) (.var 1)) 3) (.pow (.add (.num 5 1) (.mul (.num 2 1) (.var 1))) 2)))))) (.mul (.mul (.num 6 1) (.add (.neg (.num 1 1)) (.mul (.num 2 1) (.var 1)))) (.sqrt (.div (.mul (.add (.num 1 1) (.var 1)) (.add (.num 1 1) (.mul (.num 2 1) (.var 1)))) (.mul (.pow (.add (.num 2 1) (.var 1)) 3) (.pow (.add (.add (.num 15 1) (.mul (.num 16 1) (.var 1))) (.mul (.num 4 1) (.pow (.var 1) 2))) 2)))))) (.div (.mul (.mul (.num 3 1) (.add (.num 1 1) (.mul (.num 2 1) (.var 1)))) (.add (.neg (.num 1 1)) (.mul (.num 6 1) (.var 1)))) (.mul (.mul (.add (.num 2 1) (.var 1)) (.add (.add (.num 15 1) (.mul (.num 16 1) (.var 1))) (.mul (.num 4 1) (.pow (.var 1) 2)))) (.sqrt (.add (.add (.add (.num 2 1) (.mul (.num 7 1) (.var 1))) (.mul (.num 7 1) (.pow (.var 1) 2))) (.mul (.num 2 1) (.pow (.var 1) 3))))))) (.div (.mul (.num 24 1) (.var 1)) (.mul (.sqrt (.add (.add (.add (.num 2 1) (.mul (.num 7 1) (.var 1))) (.mul (.num 7 1) (.pow (.var 1) 2))) (.mul (.num 2 1) (.pow (.var 1) 3)))) (.add (.add (.add (.num 30 1) (.mul (.num 47 1) (.var 1))) (.mul (.num 24 1) (.pow (.var 1) 2))) (.mul (.num 4 1) (.pow (.var 1) 3)))))),
  .mul (.neg (.num 2 1)) (.sqrt (.div (.mul (.add (.neg (.num 2 1)) (.var 1)) (.add (.num 1 1) (.var 1))) (.add (.sub (.neg (.num 3 1)) (.mul (.num 4 1) (.var 1))) (.mul (.num 4 1) (.pow (.var 1) 2))))),
  .div (.sqrt (.num 5 1)) (.sqrt (.add (.sub (.neg (.num 3 1)) (.mul (.num 4 1) (.var 1))) (.mul (.num 4 1) (.pow (.var 1) 2)))),
  .div (.sub (.num 9 1) (.mul (.num 4 1) (.pow (.var 1) 2))) (.sqrt (.add (.sub (.num 9 1) (.mul (.num 40 1) (.pow (.var 1) 2))) (.mul (.num 16 1) (.pow (.var 1) 4)))),
  .div (.mul (.num 2 1) (.sqrt (.num 2 1))) (.sqrt (.add (.neg (.num 1 1)) (.mul (.num 4 1) (.pow (.var 1) 2)))),
  .div (.mul (.neg (.num 2 1)) (.sqrt (.add (.add (.neg (.num 2 1)) (.var 1)) (.pow (.var 1) 2)))) (.add (.num 1 1) (.mul (.num 2 1) (.var 1))),
  .div (.num 3 1) (.add (.num 1 1) (.mul (.num 2 1) (.var 1))),
  .neg (.div (.mul (.sqrt (.add (.num 1 1) (.var 1))) (.add (.add (.add (.mul (.num 120 1) (.sqrt (.div (.add (.neg (.num 2 1)) (.mul (.num 4 1) (.var 1))) (.mul (.mul (.mul (.add (.num 1 1) (.var 1)) (.pow (.add (.num 2 1) (.var 1)) 2)) (.pow (.add (.num 3 1) (.mul (.num 2 1) (.var 1))) 3)) (.add (.add (.num 5 1) (.mul (.num 12 1) (.var 1))) (.mul (.num 4 1) (.pow (.var 1) 2))))))) (.div (.mul (.mul (.mul (.var 1) (.add (.neg (.num 7 1)) (.mul (.num 2 1) (.var 1)))) (.add (.neg (.num 1 1)) (.mul (.num 2 1) (.var 1)))) (.sqrt (.div (.add (.num 2 1) (.mul (.num 4 1) (.var 1))) (.mul (.add (.num 3 1) (.mul (.num 2 1) (.var 1))) (.add (.add (.add (.neg (.num 5 1)) (.mul (.num 3 1) (.var 1))) (.mul (.num 12 1) (.pow (.var 1) 2))) (.mul (.num 4 1) (.pow (.var 1) 3))))))) (.add (.add (.num 6 1) (.mul (.num 7 1) (.var 1))) (.mul (.num 2 1) (.pow (.var 1) 2))))) (.div (.mul (.mul (.mul (.mul (.num 18 1) (.sqrt (.num 2 1))) (.var 1)) (.add (.neg (.num 3 1)) (.mul (.num 2 1) (.var 1)))) (.add (.neg (.num 1 1)) (.mul (.num 2 1) (.var 1)))) (.mul (.add (.add (.num 6 1) (.mul (.num 7 1) (.var 1))) (.mul (.num 2 1) (.pow (.var 1) 2))) (.sqrt (.mul (.add (.num 3 1) (.mul (.num 2 1) (.var 1))) (.add (.add (.add (.sub (.neg (.num 5 1)) (.mul (.num 7 1) (.var 1))) (.mul (.num 18 1) (.pow (.var 1) 2))) (.mul (.num 28 1) (.pow (.var 1) 3))) (.mul (.num 8 1) (.pow (.var 1) 4)))))))) (.div (.mul (.mul (.mul (.num 18 1) (.sqrt (.num 2 1))) (.add (.neg (.num 1 1)) (.mul (.num 2 1) (.var 1)))) (.add (.neg (.num 5 1)) (.mul (.num 6 1) (.var 1)))) (.mul (.add (.add (.num 6 1) (.mul (.num 7 1) (.var 1))) (.mul (.num 2 1) (.pow (.var 1) 2))) (.sqrt (.mul (.add (.num 3 1) (.mul (.num 2 1) (.var 1))) (.add (.add (.add (.sub (.neg (.num 5 1)) (.mul (.num 7 1) (.var 1))) (.mul (.num 18 1) (.pow (.var 1) 2))) (.mul (.num 28 1) (.pow (.var 1) 3))) (.mul (.num 8 1) (.pow (.var 1) 4))))))))) (.sqrt (.num 2 1))),
  .div (.mul (.num 2 1) (.sqrt (.num 2 1))) (.sqrt (.add (.add (.num 3 1) (.mul (.num 8 1) (.var 1))) (.mul (.num 4 1) (.pow (.var 1) 2)))),
  .mul (.mul (.neg (.num 2 1)) (.sqrt (.add (.num 1 1) (.var 1)))) (.add (.add (.add (.add (.div (.add (.neg (.num 2 1)) (.var 1)) (.sqrt (.div (.mul (.mul (.pow (.add (.num 2 1) (.var 1)) 2) (.add (.num 3 1) (.var 1))) (.pow (.add (.num 5 1) (.mul (.num 2 1) (.var 1))) 3)) (.mul (.var 1) (.add (.add (.num 1 1) (.mul (.num 3 1) (.var 1))) (.mul (.num 2 1) (.pow (.var 1) 2))))))) (.div (.mul (.num 150 1) (.sqrt (.div (.var 1) (.mul (.mul (.add (.add (.num 3 1) (.mul (.num 7 1) (.var 1))) (.mul (.num 2 1) (.pow (.var 1) 2))) (.add (.add (.num 5 1) (.mul (.num 7 1) (.var 1))) (.mul (.num 2 1) (.pow (.var 1) 2)))) (.pow (.add (.add (.num 6 1) (.mul (.num 7 1) (.var 1))) (.mul (.num 2 1) (.pow (.var 1) 2))) 2))))) (.add (.num 5 1) (.mul (.num 2 1) (.var 1))))) (.div (.mul (.mul (.num 18 1) (.var 1)) (.add (.neg (.num 1 1)) (.mul (.num 3 1) (.var 1)))) (.sqrt (.div (.mul (.mul (.mul (.mul (.var 1) (.add (.num 1 1) (.var 1))) (.add (.num 3 1) (.var 1))) (.pow (.add (.num 5 1) (.mul (.num 2 1) (.var 1))) 3)) (.pow (.add (.add (.num 6 1) (.mul (.num 7 1) (.var 1))) (.mul (.num 2 1) (.pow (.var 1) 2))) 2)) (.add (.num 1 1) (.mul (.num 2 1) (.var 1))))))) (.div (.mul (.mul (.num 4 1) (.var 1)) (.add (.neg (.num 3 1)) (.mul (.num 4 1) (.var 1)))) (.sqrt (.div (.mul (.mul (.mul (.var 1) (.add (.num 3 1) (.var 1))) (.pow (.add (.num 5 1) (.mul (.num 2 1) (.var 1))) 3)) (.pow (.add (.add (.num 6 1) (.mul (.num 7 1) (.var 1))) (.mul (.num 2 1) (.pow (.var 1) 2))) 2)) (.add (.add (.num 1 1) (.mul (.num 3 1) (.var 1))) (.mul (.num 2 1) (.pow (.var 1) 2))))))) (.div (.mul (.mul (.num 24 1) (.var 1)) (.add (.neg (.num 1 1)) (.mul (.num 8 1) (.var 1)))) (.mul (.sqrt (.mul (.mul (.var 1) (.add (.num 5 1) (.mul (.num 2 1) (.var 1)))) (.add (.add (.add (.num 3 1) (.mul (.num 10 1) (.var 1))) (.mul (.num 9 1) (.pow (.var 1) 2))) (.mul (.num 2 1) (.pow (.var 1) 3))))) (.add (.add (.add (.num 30 1) (.mul (.num 47 1) (.var 1))) (.mul (.num 24 1) (.pow (.var 1) 2))) (.mul (.num 4 1) (.pow (.var 1) 3)))))),
  .neg (.mul (.mul (.sqrt (.num 5 1)) (.sqrt (.add (.num 1 1) (.var 1)))) (.add (.add (.add (.add (.sub (.mul (.mul (.num 2 1) (.add (.neg (.num 2 1)) (.var 1))) (.sqrt (.div (.add (.add (.num 1 1) (.mul (.num 3 1) (.var 1))) (.mul (.num 2 1) (.pow (.var 1) 2))) (.mul (.pow (.add (.num 3 1) (.var 1)) 2) (.pow (.add (.num 5 1) (.mul (.num 2 1) (.var 1))) 3))))) (.div (.sqrt (.div (.add (.add (.num 1 1) (.mul (.num 3 1) (.var 1))) (.mul (.num 2 1) (.pow (.var 1) 2))) (.add (.num 5 1) (.mul (.num 2 1) (.var 1))))) (.add (.num 3 1) (.var 1)))) (.mul (.mul (.num 2 1) (.add (.neg (.num 3 1)) (.mul (.num 4 1) (.var 1)))) (.sqrt (.div (.add (.add (.num 1 1) (.mul (.num 3 1) (.var 1))) (.mul (.num 2 1) (.pow (.var 1) 2))) (.mul (.pow (.add (.num 5 1) (.mul (.num 2 1) (.var 1))) 3) (.pow (.add (.add (.num 6 1) (.mul (.num 5 1) (.var 1))) (.pow (.var 1) 2)) 2)))))) (.mul (.mul (.num 12 1) (.add (.neg (.num 1 1)) (.mul (.num 3 1) (.var 1)))) (.sqrt (.div (.add (.add (.num 1 1) (.mul (.num 3 1) (.var 1))) (.mul (.num 2 1) (.pow (.var 1) 2))) (.mul (.pow (.add (.num 5 1) (.mul (.num 2 1) (.var 1))) 3) (.pow (.add (.add (.add (.num 18 1) (.mul (.num 27 1) (.var 1))) (.mul (.num 13 1) (.pow (.var 1) 2))) (.mul (.num 2 1) (.pow (.var 1) 3))) 2)))))) (.div (.mul (.mul (.num 6 1) (.add (.num 1 1) (.mul (.num 2 1) (.var 1)))) (.add (.neg (.num 1 1)) (.mul (.num 8 1) (.var 1)))) (.mul (.mul (.add (.num 5 1) (.mul (.num 2 1) (.var 1))) (.add (.add (.add (.num 18 1) (.mul (.num 27 1) (.var 1))) (.mul (.num 13 1) (.pow (.var 1) 2))) (.mul (.num 2 1) (.pow (.var 1) 3)))) (.sqrt (.add (.add (.add (.num 5 1) (.mul (.num 17 1) (.var 1))) (.mul (.num 16 1) (.pow (.var 1) 2))) (.mul (.num 4 1) (.pow (.var 1) 3))))))) (.div (.mul (.num 60 1) (.var 1)) (.mul (.sqrt (.add (.add (.add (.num 5 1) (.mul (.num 17 1) (.var 1))) (.mul (.num 16 1) (.pow (.var 1) 2))) (.mul (.num 4 1) (.pow (.var 1) 3)))) (.add (.add (.add (.add (.num 90 1) (.mul (.num 171 1) (.var 1))) (.mul (.num 119 1) (.pow (.var 1) 2))) (.mul (.num 36 1) (.pow (.var 1) 3))) (.mul (.num 4 1) (.pow (.var 1) 4))))))),
  .div (.num 1 1) (.sub (.neg (.num 1 1)) (.mul (.num 2 1) (.var 1))),
  .neg (.div (.sqrt (.num 3 1)) (.sqrt (.add (.neg (.num 1 1)) (.mul (.num 4 1) (.pow (.var 1) 2))))),
  .div (.mul (.neg (.num 2 1)) (.add (.neg (.num 1 1)) (.pow (.var 1) 2))) (.sqrt (.add (.sub (.num 1 1) (.mul (.num 5 1) (.pow (.var 1) 2))) (.mul (.num 4 1) (.pow (.var 1) 4)))),
  .div (.neg (.num 2 1)) (.add (.num 1 1) (.mul (.num 2 1) (.var 1))),
  .neg (.div (.mul (.sqrt (.num 3 1)) (.add (.add (.mul (.num 3 1) (.sqrt (.mul (.var 1) (.add (.num 1 1) (.var 1))))) (.mul (.num 5 1) (.sqrt (.mul (.pow (.var 1) 3) (.add (.num 1 1) (.var 1)))))) (.mul (.num 2 1) (.sqrt (.mul (.pow (.var 1) 5) (.add (.num 1 1) (.var 1))))))) (.sqrt (.mul (.mul (.var 1) (.add (.num 1 1) (.mul (.num 2 1) (.var 1)))) (.pow (.add (.add (.num 3 1) (.mul (.num 5 1) (.var 1))) (.mul (.num 2 1) (.pow (.var 1) 2))) 3)))),
  .neg (.div (.add (.add (.mul (.num 9 1) (.sqrt (.div (.var 1) (.add (.num 3 1) (.mul (.num 2 1) (.var 1)))))) (.sqrt (.mul (.var 1) (.add (.num 3 1) (.mul (.num 2 1) (.var 1)))))) (.mul (.mul (.num 2 1) (.var 1)) (.add (.mul (.num 3 1) (.sqrt (.div (.var 1) (.add (.num 3 1) (.mul (.num 2 1) (.var 1)))))) (.sqrt (.mul (.var 1) (.add (.num 3 1) (.mul (.num 2 1) (.var 1)))))))) (.mul (.add (.num 3 1) (.mul (.num 2 1) (.var 1))) (.sqrt (.add (.add (.num 2 1) (.mul (.num 5 1) (.var 1))) (.mul (.num 2 1) (.pow (.var 1) 2)))))),
  .div (.num 1 1) (.sqrt (.mul (.var 1) (.add (.num 1 1) (.mul (.num 2 1) (.var 1))))),
  .div (.add (.add (.neg (.sqrt (.add (.num 2 1) (.div (.num 1 1) (.var 1))))) (.sqrt (.mul (.var 1) (.add (.num 1 1) (.mul (.num 2 1) (.var 1)))))) (.mul (.num 2 1) (.sqrt (.mul (.pow (.var 1) 3) (.add (.num 1 1) (.mul (.num 2 1) (.var 1))))))) (.mul (.add (.num 1 1) (.mul (.num 2 1) (.var 1))) (.sqrt (.add (.add (.neg (.num 1 1)) (.var 1)) (.mul (.num 2 1) (.pow (.var 1) 2))))),
  .div (.num 1 1) (.sqrt (.mul (.add (.num 1 1) (.var 1)) (.add (.num 1 1) (.mul (.num 2 1) (.var 1))))),
  .div (.add (.add (.sqrt (.div (.var 1) (.add (.num 1 1) (.var 1)))) (.mul (.sqrt (.div (.var 1) (.add (.num 1 1) (.var 1)))) (.add (.num 1 1) (.mul (.num 2 1) (.var 1))))) (.mul (.sqrt (.mul (.var 1) (.add (.num 1 1) (.var 1)))) (.add (.num 1 1) (.mul (.num 2 1) (.var 1))))) (.mul (.add (.num 1 1) (.var 1)) (.sqrt (.add (.add (.num 3 1) (.mul (.num 8 1) (.var 1))) (.mul (.num 4 1) (.pow (.var 1) 2))))),
  .div (.sqrt (.num 2 1)) (.sqrt (.mul (.add (.neg (.num 1 1)) (.var 1)) (.add (.num 1 1) (.mul (.num 2 1) (.var 1))))),
  .div (.add (.sub (.neg (.num 3 1)) (.var 1)) (.mul (.num 2 1) (.pow (.var 1) 2))) (.sqrt (.add (.sub (.sub (.add (.num 3 1) (.mul (.num 4 1) (.var 1))) (.mul (.num 7 1) (.pow (.var 1) 2))) (.mul (.num 4 1) (.pow (.var 1) 3))) (.mul (.num 4 1) (.pow (.var 1) 4)))),
  .div (.sqrt (.num 3 1)) (.sqrt (.mul (.var 1) (.add (.num 1 1) (.mul (.num 2 1) (.var 1))))),
  .div (.add (.add (.mul (.num 6 1) (.sqrt (.div (.add (.neg (.num 1 1)) (.var 1)) (.mul (.var 1) (.add (.add (.num 3 1) (.mul (.num 8 1) (.var 1))) (.mul (.num 4 1) (.pow (.var 1) 2))))))) (.mul (.mul (.add (.neg (.num 1 1)) (.var 1)) (.add (.neg (.num 1 1)) (.mul (.num 2 1) (.var 1)))) (.sqrt (.div (.var 1) (.add (.add (.sub (.neg (.num 3 1)) (.mul (.num 5 1) (.var 1))) (.mul (.num 4 1) (.pow (.var 1) 2))) (.mul (.num 4 1) (.pow (.var 1) 3))))))) (.div (.mul (.mul (.num 3 1) (.add (.neg (.num 1 1)) (.var 1))) (.hpow (.add (.neg (.num 1 1)) (.mul (.num 2 1) (.var 1))) 1)) (.sqrt (.mul (.var 1) (.add (.add (.sub (.sub (.num 3 1) (.var 1)) (.mul (.num 14 1) (.pow (.var 1) 2))) (.mul (.num 4 1) (.pow (.var 1) 3))) (.mul (.num 8 1) (.pow (.var 1) 4))))))) (.add (.num 1 1) (.var 1)),
  .div (.sqrt (.num 3 1)) (.sqrt (.add (.add (.num 1 1) (.mul (.num 3 1) (.var 1))) (.mul (.num 2 1) (.pow (.var 1) 2)))),
  .div (.add (.add (.neg (.num 2 1)) (.mul (.num 3 1) (.var 1))) (.mul (.num 2 1) (.pow (.var 1) 2))) (.sqrt (.add (.add (.add (.sub (.neg (.num 2 1)) (.mul (.num 3 1) (.var 1))) (.mul (.num 7 1) (.pow (.var 1) 2))) (.mul (.num 12 1) (.pow (.var 1) 3))) (.mul (.num 4 1) (.pow (.var 1) 4)))),
  .div (.mul (.sqrt (.num 2 1)) (.add (.add (.add (.sqrt (.mul (.mul (.mul (.pow (.var 1) 3) (.pow (.add (.num 1 1) (.var 1)) 3)) (.pow (.add (.num 1 1) (.mul (.num 2 1) (.var 1))) 2)) (.add (.num 3 1) (.mul (.num 2 1) (.var 1))))) (.mul (.num 6 1) (.sqrt (.mul (.var 1) (.add (.add (.num 3 1) (.mul (.num 5 1) (.var 1))) (.mul (.num 2 1) (.pow (.var 1) 2))))))) (.mul (.mul (.num 12 1) (.var 1)) (.sqrt (.mul (.var 1) (.add (.add (.num 3 1) (.mul (.num 5 1) (.var 1))) (.mul (.num 2 1) (.pow (.var 1) 2))))))) (.mul (.num 6 1) (.sqrt (.mul (.pow (.var 1) 5) (.add (.add (.num 3 1) (.mul (.num 5 1) (.var 1))) (.mul (.num 2 1) (.pow (.var 1) 2)))))))) (.sqrt (.mul (.mul (.var 1) (.add (.num 1 1) (.mul (.num 2 1) (.var 1)))) (.pow (.add (.add (.add (.num 6 1) (.mul (.num 13 1) (.var 1))) (.mul (.num 9 1) (.pow (.var 1) 2))) (.mul (.num 2 1) (.pow (.var 1) 3))) 3))),
  .div (.add (.add (.mul (.num 8 1) (.sqrt (.div (.var 1) (.add (.num 2 1) (.var 1))))) (.sqrt (.mul (.var 1) (.add (.num 2 1) (.var 1))))) (.mul (.mul (.num 2 1) (.var 1)) (.add (.mul (.num 2 1) (.sqrt (.div (.var 1) (.add (.num 2 1) (.var 1))))) (.sqrt (.mul (.var 1) (.add (.num 2 1) (.var 1))))))) (.mul (.add (.num 2 1) (.var 1)) (.sqrt (.add (.add (.num 5 1) (.mul (.num 12 1) (.var 1))) (.mul (.num 4 1) (.pow (.var 1) 2))))),
  .neg (.div (.sqrt (.num 5 1)) (.sqrt (.add (.sub (.neg (.num 3 1)) (.mul (.num 4 1) (.var 1))) (.mul (.num 4 1) (.pow (.var 1) 2))))),
  .div (.mul (.neg (.num 2 1)) (.add (.sub (.neg (.num 2 1)) (.var 1)) (.pow (.var 1) 2))) (.sqrt (.mul (.add (.sub (.num 6 1) (.mul (.num 7 1) (.var 1))) (.mul (.num 2 1) (.pow (.var 1) 2))) (.add (.add (.num 1 1) (.mul (.num 3 1) (.var 1))) (.mul (.num 2 1) (.pow (.var 1) 2))))),
  .div (.mul (.neg (.num 2 1)) (.sqrt (.div (.add (.num 2 1) (.mul (.num 4 1) (.var 1))) (.add (.neg (.num 1 1)) (.mul (.num 2 1) (.var 1)))))) (.add (.num 1 1) (.mul (.num 2 1) (.var 1))),
  .div (.neg (.num 3 1)) (.add (.num 1 1) (.mul (.num 2 1) (.var 1))),
  .div (.mul (.neg (.num 2 1)) (.sqrt (.num 2 1))) (.sqrt (.add (.add (.num 3 1) (.mul (.num 8 1) (.var 1))) (.mul (.num 4 1) (.pow (.var 1) 2)))),
  .sub (.sub (.sub (.sub (.mul (.mul (.mul (.neg (.num 8 1)) (.var 1)) (.add (.neg (.num 1 1)) (.mul (.num 2 1) (.var 1)))) (.sqrt (.div (.add (.num 1 1) (.mul (.num 2 1) (.var 1))) (.mul (.mul (.pow (.add (.num 2 1) (.var 1)) 2) (.pow (.add (.num 3 1) (.mul (.num 2 1) (.var 1))) 3)) (.add (.add (.neg (.num 5 1)) (.mul (.num 8 1) (.var 1))) (.mul (.num 4 1) (.pow (.var 1) 2))))))) (.div (.mul (.mul (.var 1) (.add (.neg (.num 1 1)) (.mul (.num 2 1) (.var 1)))) (.sqrt (.div (.add (.num 1 1) (.mul (.num 2 1) (.var 1))) (.add (.add (.add (.neg (.num 15 1)) (.mul (.num 14 1) (.var 1))) (.mul (.num 28 1) (.pow (.var 1) 2))) (.mul (.num 8 1) (.pow (.var 1) 3)))))) (.add (.num 2 1) (.var 1)))) (.div (.mul (.mul (.mul (.num 18 1) (.var 1)) (.add (.neg (.num 1 1)) (.mul (.num 2 1) (.var 1)))) (.sqrt (.div (.add (.num 1 1) (.mul (.num 2 1) (.var 1))) (.add (.add (.add (.neg (.num 15 1)) (.mul (.num 14 1) (.var 1))) (.mul (.num 28 1) (.pow (.var 1) 2))) (.mul (.num 8 1) (.pow (.var 1) 3)))))) (.add (.add (.add (.num 6 1) (.mul (.num 13 1) (.var 1))) (.mul (.num 9 1) (.pow (.var 1) 2))) (.mul (.num 2 1) (.pow (.var 1) 3))))) (.div (.mul (.num 30 1) (.sqrt (.div (.add (.neg (.num 1 1)) (.mul (.num 2 1) (.var 1))) (.add (.add (.add (.num 15 1) (.mul (.num 46 1) (.var 1))) (.mul (.num 36 1) (.pow (.var 1) 2))) (.mul (.num 8 1) (.pow (.var 1) 3)))))) (.add (.add (.add (.num 6 1) (.mul (.num 13 1) (.var 1))) (.mul (.num 9 1) (.pow (.var 1) 2))) (.mul (.num 2 1) (.pow (.var 1) 3))))) (.div (.mul (.mul (.num 48 1) (.var 1)) (.add (.neg (.num 1 1)) (.mul (.num 2 1) (.var 1)))) (.mul (.add (.add (.add (.num 6 1) (.mul (.num 13 1) (.var 1))) (.mul (.num 9 1) (.pow (.var 1) 2))) (.mul (.num 2 1) (.pow (.var 1) 3))) (.sqrt (.add (.add (.add (.sub (.neg (.num 15 1)) (.mul (.num 16 1) (.var 1))) (.mul (.num 56 1) (.pow (.var 1) 2))) (.mul (.num 64 1) (.pow (.var 1) 3))) (.mul (.num 16 1) (.pow (.var 1) 4)))))),
  .neg (.div (.mul (.sqrt (.num 5 1)) (.add (.add (.add (.add (.sqrt (.mul (.mul (.mul (.pow (.var 1) 3) (.add (.num 2 1) (.var 1))) (.pow (.add (.num 1 1) (.mul (.num 2 1) (.var 1))) 2)) (.pow (.add (.add (.num 3 1) (.mul (.num 5 1) (.var 1))) (.mul (.num 2 1) (.pow (.var 1) 2))) 3))) (.mul (.mul (.num 8 1) (.var 1)) (.sqrt (.mul (.mul (.mul (.var 1) (.pow (.add (.num 1 1) (.var 1)) 3)) (.pow (.add (.num 1 1) (.mul (.num 2 1) (.var 1))) 2)) (.add (.add (.num 6 1) (.mul (.num 7 1) (.var 1))) (.mul (.num 2 1) (.pow (.var 1) 2))))))) (.mul (.num 30 1) (.sqrt (.mul (.var 1) (.add (.add (.add (.num 6 1) (.mul (.num 13 1) (.var 1))) (.mul (.num 9 1) (.pow (.var 1) 2))) (.mul (.num 2 1) (.pow (.var 1) 3))))))) (.mul (.mul (.num 66 1) (.var 1)) (.sqrt (.mul (.var 1) (.add (.add (.add (.num 6 1) (.mul (.num 13 1) (.var 1))) (.mul (.num 9 1) (.pow (.var 1) 2))) (.mul (.num 2 1) (.pow (.var 1) 3))))))) (.mul (.num 36 1) (.sqrt (.mul (.pow (.var 1) 5) (.add (.add (.add (.num 6 1) (.mul (.num 13 1) (.var 1))) (.mul (.num 9 1) (.pow (.var 1) 2))) (.mul (.num 2 1) (.pow (.var 1) 3)))))))) (.sqrt (.mul (.mul (.var 1) (.add (.num 1 1) (.mul (.num 2 1) (.var 1)))) (.pow (.add (.add (.add (.add (.num 30 1) (.mul (.num 77 1) (.var 1))) (.mul (.num 71 1) (.pow (.var 1) 2))) (.mul (.num 28 1) (.pow (.var 1) 3))) (.mul (.num 4 1) (.pow (.var 1) 4))) 3)))),
  .neg (.div (.add (.add (.mul (.num 25 1) (.sqrt (.div (.var 1) (.add (.num 5 1) (.mul (.num 2 1) (.var 1)))))) (.sqrt (.mul (.var 1) (.add (.num 5 1) (.mul (.num 2 1) (.var 1)))))) (.mul (.mul (.num 2 1) (.var 1)) (.add (.mul (.num 5 1) (.sqrt (.div (.var 1) (.add (.num 5 1) (.mul (.num 2 1) (.var 1)))))) (.sqrt (.mul (.var 1) (.add (.num 5 1) (.mul (.num 2 1) (.var 1)))))))) (.mul (.add (.num 5 1) (.mul (.num 2 1) (.var 1))) (.sqrt (.add (.add (.num 3 1) (.mul (.num 7 1) (.var 1))) (.mul (.num 2 1) (.pow (.var 1) 2)))))),
  .div (.mul (.neg (.num 2 1)) (.sqrt (.div (.mul (.var 1) (.add (.add (.num 6 1) (.mul (.num 7 1) (.var 1))) (.mul (.num 2 1) (.pow (.var 1) 2)))) (.add (.num 1 1) (.mul (.num 2 1) (.var 1)))))) (.add (.num 3 1) (.mul (.num 2 1) (.var 1))),
  .div (.mul (.num 3 1) (.add (.add (.sqrt (.mul (.var 1) (.add (.num 2 1) (.var 1)))) (.mul (.num 4 1) (.sqrt (.mul (.pow (.var 1) 3) (.add (.num 2 1) (.var 1)))))) (.mul (.num 4 1) (.sqrt (.mul (.pow (.var 1) 5) (.add (.num 2 1) (.var 1))))))) (.mul (.add (.num 1 1) (.var 1)) (.pow (.add (.num 1 1) (.mul (.num 2 1) (.var 1))) 3)),
  .div (.mul (.sub (.sub (.num 5 1) (.mul (.num 8 1) (.var 1))) (.mul (.num 4 1) (.pow (.var 1) 2))) (.sqrt (.div (.mul (.var 1) (.add (.add (.num 6 1) (.mul (.num 7 1) (.var 1))) (.mul (.num 2 1) (.pow (.var 1) 2)))) (.add (.add (.sub (.neg (.num 5 1)) (.mul (.num 2 1) (.var 1))) (.mul (.num 20 1) (.pow (.var 1) 2))) (.mul (.num 8 1) (.pow (.var 1) 3)))))) (.mul (.add (.num 1 1) (.var 1)) (.add (.num 3 1) (.mul (.num 2 1) (.var 1)))),
  .div (.mul (.neg (.num 6 1)) (.sqrt (.add (.add (.num 2 1) (.mul (.num 3 1) (.var 1))) (.pow (.var 1) 2)))) (.add (.add (.add (.num 3 1) (.mul (.num 11 1) (.var 1))) (.mul (.num 12 1) (.pow (.var 1) 2))) (.mul (.num 4 1) (.pow (.var 1) 3))),
  .div (.mul (.mul (.mul (.num 2 1) (.sqrt (.num 3 1))) (.var 1)) (.add (.num 5 1) (.mul (.num 2 1) (.var 1)))) (.mul (.add (.num 3 1) (.mul (.num 2 1) (.var 1))) (.sqrt (.mul (.mul (.var 1) (.add (.num 1 1) (.mul (.num 2 1) (.var 1)))) (.add (.add (.num 5 1) (.mul (.num 7 1) (.var 1))) (.mul (.num 2 1) (.pow (.var 1) 2)))))),
  .div (.mul (.neg (.num 2 1)) (.sqrt (.mul (.var 1) (.add (.num 3 1) (.var 1))))) (.add (.num 3 1) (.mul (.num 2 1) (.var 1))),
  .div (.num 3 1) (.add (.add (.add (.num 3 1) (.mul (.num 11 1) (.var 1))) (.mul (.num 12 1) (.pow (.var 1) 2))) (.mul (.num 4 1) (.pow (.var 1) 3))),
  .div (.neg (.num 3 1)) (.add (.add (.num 3 1) (.mul (.num 5 1) (.var 1))) (.mul (.num 2 1) (.pow (.var 1) 2))),
  .div (.num 3 1) (.add (.num 3 1) (.mul (.num 2 1) (.var 1))),
  .div (.sqrt (.div (.add (.add (.add (.neg (.num 2 1)) (.var 1)) (.mul (.num 5 1) (.pow (.var 1) 2))) (.mul (.num 2 1) (.pow (.var 1) 3))) (.add (.num 1 1) (.mul (.num 2 1) (.var 1))))) (.add (.num 1 1) (.var 1)),
  .neg (.div (.mul (.sqrt (.num 3 1)) (.sqrt (.add (.add (.num 6 1) (.mul (.num 7 1) (.var 1))) (.mul (.num 2 1) (.pow (.var 1) 2))))) (.add (.add (.num 3 1) (.mul (.num 5 1) (.var 1))) (.mul (.num 2 1) (.pow (.var 1) 2)))),
  .div (.add (.num 5 1) (.mul (.num 2 1) (.var 1))) (.sqrt (.add (.add (.add (.num 31 1) (.div (.num 15 1) (.var 1))) (.mul (.num 20 1) (.var 1))) (.mul (.num 4 1) (.pow (.var 1) 2)))),
  .div (.sqrt (.num 3 1)) (.mul (.add (.num 1 1) (.var 1)) (.sqrt (.add (.add (.num 3 1) (.mul (.num 8 1) (.var 1))) (.mul (.num 4 1) (.pow (.var 1) 2))))),
  .neg (.div (.sqrt (.num 3 1)) (.sqrt (.mul (.add (.num 1 1) (.var 1)) (.add (.num 3 1) (.mul (.num 2 1) (.var 1)))))),
  .sqrt (.div (.add (.add (.neg (.num 6 1)) (.var 1)) (.mul (.num 2 1) (.pow (.var 1) 2))) (.mul (.var 1) (.add (.num 1 1) (.mul (.num 2 1) (.var 1))))),
  .neg (.div (.mul (.mul (.sqrt (.num 2 3)) (.sqrt (.div (.add (.add (.add (.num 6 1) (.mul (.num 13 1) (.var 1))) (.mul (.num 9 1) (.pow (.var 1) 2))) (.mul (.num 2 1) (.pow (.var 1) 3))) (.add (.neg (.num 1 1)) (.var 1))))) (.sub (.add (.div (.neg (.num 6 1)) (.sqrt (.div (.mul (.mul (.var 1) (.pow (.add (.num 1 1) (.mul (.num 2 1) (.var 1))) 2)) (.add (.num 3 1) (.mul (.num 2 1) (.var 1)))) (.add (.sub (.num 1 1) (.mul (.num 3 1) (.var 1))) (.mul (.num 2 1) (.pow (.var 1) 2)))))) (.div (.mul (.num 6 1) (.sqrt (.div (.mul (.var 1) (.add (.sub (.num 1 1) (.mul (.num 3 1) (.var 1))) (.mul (.num 2 1) (.pow (.var 1) 2)))) (.add (.num 3 1) (.mul (.num 2 1) (.var 1)))))) (.add (.num 1 1) (.mul (.num 2 1) (.var 1))))) (.mul (.mul (.num 3 1) (.add (.neg (.num 1 1)) (.var 1))) (.sqrt (.div (.mul (.pow (.sub (.num 3 1) (.mul (.num 2 1) (.var 1))) 2) (.add (.neg (.num 1 1)) (.mul (.num 2 1) (.var 1)))) (.mul (.mul (.var 1) (.pow (.add (.num 1 1) (.mul (.num 2 1) (.var 1))) 2)) (.add (.add (.neg (.num 3 1)) (.var 1)) (.mul (.num 2 1) (.pow (.var 1) 2))))))))) (.add (.num 1 1) (.var 1))),
  .div (.sqrt (.mul (.add (.add (.neg (.num 5 1)) (.mul (.num 3 1) (.var 1))) (.mul (.num 2 1) (.pow (.var 1) 2))) (.add (.add (.neg (.num 2 1)) (.mul (.num 3 1) (.var 1))) (.mul (.num 2 1) (.pow (.var 1) 2))))) (.mul (.add (.num 1 1) (.var 1)) (.add (.num 1 1) (.mul (.num 2 1) (.var 1)))),
  .div (.mul (.mul (.num 3 1) (.sqrt (.num 2 1))) (.sqrt (.div (.add (.num 2 1) (.var 1)) (.add (.add (.mul (.num 3 1) (.var 1)) (.mul (.num 8 1) (.pow (.var 1) 2))) (.mul (.num 4 1) (.pow (.var 1) 3)))))) (.add (.num 1 1) (.var 1)),
  .mul (.mul (.num 3 1) (.sqrt (.add (.add (.add (.num 6 1) (.mul (.num 13 1) (.var 1))) (.mul (.num 9 1) (.pow (.var 1) 2))) (.mul (.num 2 1) (.pow (.var 1) 3))))) (.add (.sub (.div (.mul (.mul (.num 16 1) (.add (.neg (.num 1 1)) (.var 1))) (.sqrt (.div (.add (.neg (.num 1 1)) (.mul (.num 2 1) (.var 1))) (.add (.add (.num 5 1) (.mul (.num 12 1) (.var 1))) (.mul (.num 4 1) (.pow (.var 1) 2)))))) (.hpow (.add (.add (.num 3 1) (.mul (.num 5 1) (.var 1))) (.mul (.num 2 1) (.pow (.var 1) 2))) 1)) (.div (.mul (.mul (.mul (.num 2 1) (.var 1)) (.add (.neg (.num 3 1)) (.mul (.num 2 1) (.var 1)))) (.add (.neg (.num 1 1)) (.mul (.num 2 1) (.var 1)))) (.mul (.hpow (.add (.add (.num 3 1) (.mul (.num 5 1) (.var 1))) (.mul (.num 2 1) (.pow (.var 1) 2))) 1) (.sqrt (.add (.add (.sub (.neg (.num 5 1)) (.mul (.num 2 1) (.var 1))) (.mul (.num 20 1) (.pow (.var 1) 2))) (.mul (.num 8 1) (.pow (.var 1) 3))))))) (.div (.mul (.pow (.sub (.num 1 1) (.mul (.num 2 1) (.var 1))) 2) (.add (.neg (.num 11 1)) (.mul (.num 2 1) (.var 1)))) (.mul (.add (.add (.num 3 1) (.mul (.num 5 1) (.var 1))) (.mul (.num 2 1) (.pow (.var 1) 2))) (.sqrt (.add (.add (.add (.add (.sub (.neg (.num 15 1)) (.mul (.num 31 1) (.var 1))) (.mul (.num 40 1) (.pow (.var 1) 2))) (.mul (.num 120 1) (.pow (.var 1) 3))) (.mul (.num 80 1) (.pow (.var 1) 4))) (.mul (.num 16 1) (.pow (.var 1) 5))))))),
  .mul (.sqrt (.add (.add (.add (.num 6 1) (.mul (.num 13 1) (.var 1))) (.mul (.num 9 1) (.pow (.var 1) 2))) (.mul (.num 2 1) (.pow (.var 1) 3)))) (.add (.add (.mul (.num 60 1) (.sqrt (.div (.mul (.var 1) (.add (.neg (.num 1 1)) (.mul (.num 2 1) (.var 1)))) (.mul (.pow (.add (.add (.num 3 1) (.mul (.num 5 1) (.var 1))) (.mul (.num 2 1) (.pow (.var 1) 2))) 3) (.add (.add (.add (.num 30 1) (.mul (.num 37 1) (.var 1))) (.mul (.num 15 1) (.pow (.var 1) 2))) (.mul (.num 2 1) (.pow (.var 1) 3))))))) (.mul (.mul (.mul (.num 24 1) (.add (.neg (.num 2 1)) (.var 1))) (.add (.neg (.num 1 1)) (.mul (.num 2 1) (.var 1)))) (.sqrt (.div (.var 1) (.mul (.pow (.add (.add (.num 3 1) (.mul (.num 5 1) (.var 1))) (.mul (.num 2 1) (.pow (.var 1) 2))) 3) (.add (.add (.add (.add (.neg (.num 30 1)) (.mul (.num 23 1) (.var 1))) (.mul (.num 59 1) (.pow (.var 1) 2))) (.mul (.num 28 1) (.pow (.var 1) 3))) (.mul (.num 4 1) (.pow (.var 1) 4)))))))) (.div (.mul (.mul (.var 1) (.add (.neg (.num 1 1)) (.mul (.num 2 1) (.var 1)))) (.add (.sub (.num 3 1) (.mul (.num 13 1) (.var 1))) (.mul (.num 2 1) (.pow (.var 1) 2)))) (.mul (.add (.add (.num 3 1) (.mul (.num 5 1) (.var 1))) (.mul (.num 2 1) (.pow (.var 1) 2))) (.sqrt (.mul (.var 1) (.add (.add (.add (.add (.add (.sub (.neg (.num 90 1)) (.mul (.num 81 1) (.var 1))) (.mul (.num 232 1) (.pow (.var 1) 2))) (.mul (.num 425 1) (.pow (.var 1) 3))) (.mul (.num 270 1) (.pow (.var 1) 4))) (.mul (.num 76 1) (.pow (.var 1) 5))) (.mul (.num 8 1) (.pow (.var 1) 6)))))))),
  .div (.mul (.neg (.num 3 1)) (.sqrt (.div (.add (.num 6 1) (.mul (.num 4 1) (.var 1))) (.mul (.var 1) (.pow (.add (.num 1 1) (.mul (.num 2 1) (.var 1))) 2))))) (.add (.add (.num 3 1) (.mul (.num 5 1) (.var 1))) (.mul (.num 2 1) (.pow (.var 1) 2))),
  .div (.mul (.mul (.mul (.num 3 1) (.var 1)) (.add (.num 5 1) (.mul (.num 2 1) (.var 1)))) (.sqrt (.div (.add (.num 9 1) (.mul (.num 6 1) (.var 1))) (.mul (.mul (.var 1) (.pow (.add (.num 1 1) (.mul (.num 2 1) (.var 1))) 2)) (.add (.add (.num 10 1) (.mul (.num 9 1) (.var 1))) (.mul (.num 2 1) (.pow (.var 1) 2))))))) (.add (.add (.num 3 1) (.mul (.num 5 1) (.var 1))) (.mul (.num 2 1) (.pow (.var 1) 2))),
  .div (.mul (.mul (.neg (.num 3 1)) (.var 1)) (.add (.num 3 1) (.var 1))) (.mul (.add (.num 1 1) (.var 1)) (.sqrt (.mul (.mul (.var 1) (.add (.num 3 1) (.var 1))) (.add (.add (.num 6 1) (.mul (.num 7 1) (.var 1))) (.mul (.num 2 1) (.pow (.var 1) 2)))))),
  .mul (.add (.num 7 1) (.mul (.num 2 1) (.var 1))) (.sqrt (.div (.var 1) (.add (.add (.add (.num 42 1) (.mul (.num 61 1) (.var 1))) (.mul (.num 28 1) (.pow (.var 1) 2))) (.mul (.num 4 1) (.pow (.var 1) 3))))),
  .div (.mul (.neg (.num 3 1)) (.sqrt (.num 2 1))) (.mul (.sqrt (.mul (.add (.num 2 1) (.var 1)) (.add (.num 1 1) (.mul (.num 2 1) (.var 1))))) (.add (.add (.num 3 1) (.mul (.num 5 1) (.var 1))) (.mul (.num 2 1) (.pow (.var 1) 2)))),
  .div (.mul (.num 3 1) (.sqrt (.add (.add (.add (.num 12 1) (.mul (.num 26 1) (.var 1))) (.mul (.num 18 1) (.pow (.var 1) 2))) (.mul (.num 4 1) (.pow (.var 1) 3))))) (.mul (.hpow (.add (.num 3 1) (.mul (.num 2 1) (.var 1))) 1) (.add (.add (.num 2 1) (.mul (.num 3 1) (.var 1))) (.pow (.var 1) 2))),
  .neg (.div (.sqrt (.num 6 1)) (.sqrt (.mul (.add (.num 2 1) (.var 1)) (.add (.num 3 1) (.mul (.num 2 1) (.var 1)))))),
  .mul (.neg (.num 2 1)) (.sqrt (.div (.add (.neg (.num 4 1)) (.pow (.var 1) 2)) (.add (.neg (.num 1 1)) (.mul (.num 4 1) (.pow (.var 1) 2))))),
  .div (.mul (.sqrt (.num 15 1)) (.sqrt (.div (.sub (.sub (.add (.num 2 1) (.var 1)) (.mul (.num 2 1) (.pow (.var 1) 2))) (.pow (.var 1) 3)) (.sub (.var 1) (.mul (.num 4 1) (.pow (.var 1) 3)))))) (.add (.num 1 1) (.var 1)),
  .div (.sub (.sub (.add (.mul (.num 15 1) (.sqrt (.div (.add (.neg (.num 1 1)) (.var 1)) (.mul (.var 1) (.add (.add (.num 15 1) (.mul (.num 16 1) (.var 1))) (.mul (.num 4 1) (.pow (.var 1) 2))))))) (.mul (.num 26 1) (.sqrt (.div (.mul (.add (.neg (.num 1 1)) (.var 1)) (.var 1)) (.add (.add (.num 15 1) (.mul (.num 16 1) (.var 1))) (.mul (.num 4 1) (.pow (.var 1) 2))))))) (.mul (.num 12 1) (.sqrt (.div (.mul (.add (.neg (.num 1 1)) (.var 1)) (.pow (.var 1) 3)) (.add (.add (.num 15 1) (.mul (.num 16 1) (.var 1))) (.mul (.num 4 1) (.pow (.var 1) 2))))))) (.mul (.num 8 1) (.sqrt (.div (.mul (.add (.neg (.num 1 1)) (.var 1)) (.pow (.var 1) 5)) (.add (.add (.num 15 1) (.mul (.num 16 1) (.var 1))) (.mul (.num 4 1) (.pow (.var 1) 2))))))) (.mul (.mul (.add (.num 1 1) (.var 1)) (.pow (.add (.num 1 1) (.mul (.num 2 1) (.var 1))) 2)) (.sqrt (.div (.add (.neg (.num 3 1)) (.mul (.num 2 1) (.var 1))) (.add (.add (.add (.num 6 1) (.mul (.num 13 1) (.var 1))) (.mul (.num 9 1) (.pow (.var 1) 2))) (.mul (.num 2 1) (.pow (.var 1) 3)))))),
  .div (.mul (.mul (.neg (.num 2 1)) (.sqrt (.num 30 1))) (.sqrt (.div (.add (.add (.add (.num 6 1) (.mul (.num 13 1) (.var 1))) (.mul (.num 9 1) (.pow (.var 1) 2))) (.mul (.num 2 1) (.pow (.var 1) 3))) (.add (.neg (.num 1 1)) (.mul (.num 2 1) (.var 1)))))) (.add (.add (.add (.num 3 1) (.mul (.num 11 1) (.var 1))) (.mul (.num 12 1) (.pow (.var 1) 2))) (.mul (.num 4 1) (.pow (.var 1) 3))),
  .mul (.mul (.mul (.neg (.num 2 1)) (.sqrt (.num 2 3))) (.sqrt (.add (.add (.add (.num 6 1) (.mul (.num 13 1) (.var 1))) (.mul (.num 9 1) (.pow (.var 1) 2))) (.mul (.num 2 1) (.pow (.var 1) 3))))) (.add (.sub (.div (.mul (.num 30 1) (.add (.neg (.num 3 1)) (.mul (.num 2 1) (.var 1)))) (.mul (.sqrt (.div (.mul (.mul (.add (.num 1 1) (.var 1)) (.pow (.add (.num 3 1) (.mul (.num 2 1) (.var 1))) 2)) (.add (.num 5 1) (.mul (.num 2 1) (.var 1)))) (.add (.neg (.num 1 1)) (.var 1)))) (.add (.add (.num 1 1) (.mul (.num 3 1) (.var 1))) (.mul (.num 2 1) (.pow (.var 1) 2))))) (.div (.mul (.mul (.num 3 1) (.add (.neg (.num 5 1)) (.mul (.num 2 1) (.var 1)))) (.add (.sub (.num 1 1) (.mul (.num 3 1) (.var 1))) (.mul (.num 2 1) (.pow (.var 1) 2)))) (.sqrt (.mul (.mul (.mul (.add (.neg (.num 1 1)) (.var 1)) (.pow (.add (.num 1 1) (.var 1)) 3)) (.add (.num 5 1) (.mul (.num 2 1) (.var 1)))) (.pow (.add (.add (.num 3 1) (.mul (.num 8 1) (.var 1))) (.mul (.num 4 1) (.pow (.var 1) 2))) 2))))) (.div (.mul (.mul (.num 6 1) (.pow (.add (.neg (.num 1 1)) (.var 1)) 2)) (.add (.neg (.num 15 1)) (.mul (.num 2 1) (.var 1)))) (.mul (.mul (.add (.num 3 1) (.mul (.num 2 1) (.var 1))) (.add (.add (.num 1 1) (.mul (.num 3 1) (.var 1))) (.mul (.num 2 1) (.pow (.var 1) 2)))) (.sqrt (.add (.add (.sub (.neg (.num 5 1)) (.mul (.num 2 1) (.var 1))) (.mul (.num 5 1) (.pow (.var 1) 2))) (.mul (.num 2 1) (.pow (.var 1) 3))))))),
  .mul (.mul (.neg (.num 2 1)) (.sqrt (.add (.add (.add (.num 6 1) (.mul (.num 13 1) (.var 1))) (.mul (.num 9 1) (.pow (.var 1) 2))) (.mul (.num 2 1) (.pow (.var 1) 3))))) (.add (.add (.mul (.mul (.mul (.num 8 1) (.add (.neg (.num 1 1)) (.var 1))) (.add (.neg (.num 13 1)) (.mul (.num 4 1) (.var 1)))) (.sqrt (.div (.mul (.var 1) (.add (.neg (.num 1 1)) (.mul (.num 2 1) (.var 1)))) (.mul (.mul (.pow (.add (.num 1 1) (.mul (.num 2 1) (.var 1))) 2) (.pow (.add (.add (.num 3 1) (.mul (.num 5 1) (.var 1))) (.mul (.num 2 1) (.pow (.var 1) 2))) 3)) (.add (.add (.add (.neg (.num 15 1)) (.mul (.num 4 1) (.var 1))) (.mul (.num 9 1) (.pow (.var 1) 2))) (.mul (.num 2 1) (.pow (.var 1) 3))))))) (.mul (.mul (.mul (.pow (.add (.neg (.num 1 1)) (.var 1)) 2) (.add (.neg (.num 19 1)) (.mul (.num 2 1) (.var 1)))) (.add (.neg (.num 1 1)) (.mul (.num 2 1) (.var 1)))) (.sqrt (.div (.var 1) (.mul (.mul (.pow (.add (.num 1 1) (.mul (.num 2 1) (.var 1))) 2) (.pow (.add (.add (.num 3 1) (.mul (.num 5 1) (.var 1))) (.mul (.num 2 1) (.pow (.var 1) 2))) 3)) (.add (.add (.sub (.sub (.num 15 1) (.mul (.num 34 1) (.var 1))) (.pow (.var 1) 2)) (.mul (.num 16 1) (.pow (.var 1) 3))) (.mul (.num 4 1) (.pow (.var 1) 4)))))))) (.div (.mul (.num 100 1) (.sqrt (.div (.mul (.var 1) (.add (.sub (.num 1 1) (.mul (.num 3 1) (.var 1))) (.mul (.num 2 1) (.pow (.var 1) 2)))) (.add (.add (.add (.add (.num 45 1) (.mul (.num 108 1) (.var 1))) (.mul (.num 91 1) (.pow (.var 1) 2))) (.mul (.num 32 1) (.pow (.var 1) 3))) (.mul (.num 4 1) (.pow (.var 1) 4)))))) (.add (.add (.add (.num 3 1) (.mul (.num 11 1) (.var 1))) (.mul (.num 12 1) (.pow (.var 1) 2))) (.mul (.num 4 1) (.pow (.var 1) 3))))),
  .div (.mul (.num 3 1) (.sqrt (.num 10 1))) (.mul (.add (.num 1 1) (.mul (.num 2 1) (.var 1))) (.sqrt (.mul (.var 1) (.add (.add (.add (.neg (.num 3 1)) (.var 1)) (.mul (.num 8 1) (.pow (.var 1) 2))) (.mul (.num 4 1) (.pow (.var 1) 3)))))),
  .div (.mul (.mul (.neg (.num 3 1)) (.sqrt (.num 6 1))) (.sqrt (.add (.add (.sub (.num 3 1) (.div (.num 5 1) (.var 1))) (.mul (.num 12 1) (.var 1))) (.mul (.num 4 1) (.pow (.var 1) 2))))) (.mul (.mul (.add (.num 1 1) (.var 1)) (.add (.num 1 1) (.mul (.num 2 1) (.var 1)))) (.add (.num 3 1) (.mul (.num 2 1) (.var 1)))),
  .mul (.mul (.sqrt (.num 3 1)) (.sqrt (.add (.add (.add (.num 6 1) (.mul (.num 13 1) (.var 1))) (.mul (.num 9 1) (.pow (.var 1) 2))) (.mul (.num 2 1) (.pow (.var 1) 3))))) (.add (.sub (.sub (.mul (.neg (.num 200 1)) (.sqrt (.div (.mul (.mul (.pow (.add (.neg (.num 1 1)) (.var 1)) 2) (.var 1)) (.add (.neg (.num 1 1)) (.mul (.num 2 1) (.var 1)))) (.mul (.mul (.pow (.add (.num 3 1) (.mul (.num 2 1) (.var 1))) 3) (.add (.add (.num 15 1) (.mul (.num 11 1) (.var 1))) (.mul (.num 2 1) (.pow (.var 1) 2)))) (.pow (.add (.add (.add (.num 2 1) (.mul (.num 7 1) (.var 1))) (.mul (.num 7 1) (.pow (.var 1) 2))) (.mul (.num 2 1) (.pow (.var 1) 3))) 2))))) (.div (.mul (.mul (.mul (.num 12 1) (.pow (.sub (.num 1 1) (.mul (.num 2 1) (.var 1))) 2)) (.add (.neg (.num 13 1)) (.mul (.num 4 1) (.var 1)))) (.sqrt (.div (.var 1) (.mul (.pow (.add (.add (.num 2 1) (.mul (.num 3 1) (.var 1))) (.pow (.var 1) 2)) 2) (.add (.add (.add (.add (.neg (.num 45 1)) (.mul (.num 27 1) (.var 1))) (.mul (.num 98 1) (.pow (.var 1) 2))) (.mul (.num 52 1) (.pow (.var 1) 3))) (.mul (.num 8 1) (.pow (.var 1) 4))))))) (.add (.add (.num 3 1) (.mul (.num 8 1) (.var 1))) (.mul (.num 4 1) (.pow (.var 1) 2))))) (.div (.mul (.mul (.mul (.num 6 1) (.pow (.var 1) 2)) (.add (.neg (.num 1 1)) (.mul (.num 2 1) (.var 1)))) (.add (.sub (.num 19 1) (.mul (.num 21 1) (.var 1))) (.mul (.num 2 1) (.pow (.var 1) 2)))) (.mul (.mul (.add (.add (.num 2 1) (.mul (.num 3 1) (.var 1))) (.pow (.var 1) 2)) (.add (.add (.num 3 1) (.mul (.num 8 1) (.var 1))) (.mul (.num 4 1) (.pow (.var 1) 2)))) (.sqrt (.mul (.var 1) (.add (.add (.add (.add (.neg (.num 45 1)) (.mul (.num 27 1) (.var 1))) (.mul (.num 98 1) (.pow (.var 1) 2))) (.mul (.num 52 1) (.pow (.var 1) 3))) (.mul (.num 8 1) (.pow (.var 1) 4)))))))) (.div (.mul (.mul (.var 1) (.add (.neg (.num 1 1)) (.mul (.num 2 1) (.var 1)))) (.add (.sub (.num 1 1) (.mul (.num 15 1) (.var 1))) (.mul (.num 6 1) (.pow (.var 1) 2)))) (.mul (.mul (.add (.num 2 1) (.var 1)) (.add (.add (.num 3 1) (.mul (.num 5 1) (.var 1))) (.mul (.num 2 1) (.pow (.var 1) 2)))) (.sqrt (.mul (.var 1) (.add (.add (.add (.add (.neg (.num 45 1)) (.mul (.num 27 1) (.var 1))) (.mul (.num 98 1) (.pow (.var 1) 2))) (.mul (.num 52 1) (.pow (.var 1) 3))) (.mul (.num 8 1) (.pow (.var 1) 4)))))))),
  .neg (.mul (.sqrt (.add (.add (.add (.num 6 1) (.mul (.num 13 1) (.var 1))) (.mul (.num 9 1) (.pow (.var 1) 2))) (.mul (.num 2 1) (.pow (.var 1) 3)))) (.add (.add (.add (.mul (.mul (.mul (.num 180 1) (.add (.neg (.num 3 1)) (.mul (.num 2 1) (.var 1)))) (.add (.neg (.num 1 1)) (.mul (.num 2 1) (.var 1)))) (.sqrt (.div (.var 1) (.mul (.mul (.pow (.add (.num 3 1) (.mul (.num 2 1) (.var 1))) 3) (.pow (.add (.add (.add (.num 10 1) (.mul (.num 19 1) (.var 1))) (.mul (.num 11 1) (.pow (.var 1) 2))) (.mul (.num 2 1) (.pow (.var 1) 3))) 2)) (.add (.add (.add (.neg (.num 21 1)) (.mul (.num 29 1) (.var 1))) (.mul (.num 24 1) (.pow (.var 1) 2))) (.mul (.num 4 1) (.pow (.var 1) 3))))))) (.div (.mul (.mul (.mul (.pow (.sub (.num 1 1) (.mul (.num 2 1) (.var 1))) 2) (.add (.neg (.num 9 1)) (.var 1))) (.var 1)) (.add (.num 1 1) (.mul (.num 2 1) (.var 1)))) (.mul (.mul (.hpow (.add (.num 3 1) (.mul (.num 2 1) (.var 1))) 1) (.add (.add (.add (.num 10 1) (.mul (.num 19 1) (.var 1))) (.mul (.num 11 1) (.pow (.var 1) 2))) (.mul (.num 2 1) (.pow (.var 1) 3)))) (.sqrt (.mul (.var 1) (.add (.add (.add (.neg (.num 21 1)) (.mul (.num 29 1) (.var 1))) (.mul (.num 24 1) (.pow (.var 1) 2))) (.mul (.num 4 1) (.pow (.var 1) 3)))))))) (.div (.mul (.num 600 1) (.sqrt (.div (.mul (.var 1) (.add (.neg (.num 1 1)) (.mul (.num 2 1) (.var 1)))) (.mul (.pow (.add (.add (.num 2 1) (.mul (.num 3 1) (.var 1))) (.pow (.var 1) 2)) 2) (.add (.add (.add (.num 63 1) (.mul (.num 81 1) (.var 1))) (.mul (.num 32 1) (.pow (.var 1) 2))) (.mul (.num 4 1) (.pow (.var 1) 3))))))) (.add (.add (.num 15 1) (.mul (.num 16 1) (.var 1))) (.mul (.num 4 1) (.pow (.var 1) 2))))) (.div (.mul (.mul (.mul (.num 36 1) (.var 1)) (.add (.neg (.num 1 1)) (.mul (.num 2 1) (.var 1)))) (.add (.sub (.num 1 1) (.mul (.num 7 1) (.var 1))) (.mul (.num 2 1) (.pow (.var 1) 2)))) (.mul (.mul (.add (.add (.num 3 1) (.mul (.num 5 1) (.var 1))) (.mul (.num 2 1) (.pow (.var 1) 2))) (.add (.add (.num 10 1) (.mul (.num 9 1) (.var 1))) (.mul (.num 2 1) (.pow (.var 1) 2)))) (.sqrt (.mul (.var 1) (.add (.add (.add (.add (.neg (.num 63 1)) (.mul (.num 45 1) (.var 1))) (.mul (.num 130 1) (.pow (.var 1) 2))) (.mul (.num 60 1) (.pow (.var 1) 3))) (.mul (.num 8 1) (.pow (.var 1) 4))))))))),
  .div (.mul (.mul (.neg (.num 4 1)) (.sqrt (.add (.add (.add (.num 6 1) (.mul (.num 13 1) (.var 1))) (.mul (.num 9 1) (.pow (.var 1) 2))) (.mul (.num 2 1) (.pow (.var 1) 3))))) (.add (.add (.sub (.sub (.div (.mul (.mul (.num 2 1) (.var 1)) (.add (.neg (.num 5 1)) (.mul (.num 6 1) (.var 1)))) (.mul (.hpow (.add (.num 3 1) (.mul (.num 2 1) (.var 1))) 1) (.sqrt (.add (.add (.num 2 1) (.mul (.num 3 1) (.var 1))) (.pow (.var 1) 2))))) (.div (.mul (.mul (.mul (.num 3 1) (.var 1)) (.add (.neg (.num 5 1)) (.mul (.num 2 1) (.var 1)))) (.add (.neg (.num 1 1)) (.mul (.num 2 1) (.var 1)))) (.mul (.sqrt (.add (.num 2 1) (.var 1))) (.hpow (.add (.add (.num 3 1) (.mul (.num 5 1) (.var 1))) (.mul (.num 2 1) (.pow (.var 1) 2))) 1)))) (.div (.mul (.num 2 1) (.var 1)) (.sqrt (.add (.add (.add (.num 6 1) (.mul (.num 13 1) (.var 1))) (.mul (.num 9 1) (.pow (.var 1) 2))) (.mul (.num 2 1) (.pow (.var 1) 3)))))) (.div (.mul (.mul (.mul (.num 2 1) (.var 1)) (.add (.neg (.num 15 1)) (.mul (.num 2 1) (.var 1)))) (.add (.sub (.num 1 1) (.mul (.num 3 1) (.var 1))) (.mul (.num 2 1) (.pow (.var 1) 2)))) (.mul (.sqrt (.add (.add (.add (.num 6 1) (.mul (.num 13 1) (.var 1))) (.mul (.num 9 1) (.pow (.var 1) 2))) (.mul (.num 2 1) (.pow (.var 1) 3)))) (.add (.add (.add (.num 3 1) (.mul (.num 11 1) (.var 1))) (.mul (.num 12 1) (.pow (.var 1) 2))) (.mul (.num 4 1) (.pow (.var 1) 3)))))) (.div (.mul (.num 5 1) (.add (.sub (.add (.neg (.num 3 1)) (.mul (.num 11 1) (.var 1))) (.mul (.num 12 1) (.pow (.var 1) 2))) (.mul (.num 4 1) (.pow (.var 1) 3)))) (.mul (.sqrt (.add (.add (.add (.num 6 1) (.mul (.num 13 1) (.var 1))) (.mul (.num 9 1) (.pow (.var 1) 2))) (.mul (.num 2 1) (.pow (.var 1) 3)))) (.add (.add (.add (.num 3 1) (.mul (.num 11 1) (.var 1))) (.mul (.num 12 1) (.pow (.var 1) 2))) (.mul (.num 4 1) (.pow (.var 1) 3))))))) (.add (.num 5 1) (.mul (.num 2 1) (.var 1))),
  .neg (.mul (.mul (.sqrt (.num 2 3)) (.sqrt (.add (.add (.add (.num 6 1) (.mul (.num 13 1) (.var 1))) (.mul (.num 9 1) (.pow (.var 1) 2))) (.mul (.num 2 1) (.pow (.var 1) 3))))) (.sub (.add (.add (.add (.div (.add (.neg (.num 6 1)) (.mul (.num 18 1) (.var 1))) (.sqrt (.div (.mul (.mul (.add (.num 2 1) (.var 1)) (.pow (.add (.num 5 1) (.mul (.num 2 1) (.var 1))) 3)) (.add (.add (.add (.num 9 1) (.mul (.num 18 1) (.var 1))) (.mul (.num 11 1) (.pow (.var 1) 2))) (.mul (.num 2 1) (.pow (.var 1) 3)))) (.mul (.var 1) (.add (.num 1 1) (.mul (.num 2 1) (.var 1))))))) (.mul (.mul (.mul (.num 18 1) (.sqrt (.div (.add (.num 1 1) (.mul (.num 2 1) (.var 1))) (.add (.add (.num 6 1) (.mul (.num 5 1) (.var 1))) (.pow (.var 1) 2))))) (.add (.sub (.num 19 1) (.mul (.num 21 1) (.var 1))) (.mul (.num 2 1) (.pow (.var 1) 2)))) (.hpow (.div (.var 1) (.add (.add (.add (.num 15 1) (.mul (.num 31 1) (.var 1))) (.mul (.num 20 1) (.pow (.var 1) 2))) (.mul (.num 4 1) (.pow (.var 1) 3)))) 1))) (.div (.mul (.mul (.num 300 1) (.add (.sub (.num 1 1) (.mul (.num 3 1) (.var 1))) (.mul (.num 2 1) (.pow (.var 1) 2)))) (.sqrt (.div (.var 1) (.mul (.add (.add (.num 3 1) (.mul (.num 7 1) (.var 1))) (.mul (.num 2 1) (.pow (.var 1) 2))) (.add (.add (.add (.add (.num 30 1) (.mul (.num 77 1) (.var 1))) (.mul (.num 71 1) (.pow (.var 1) 2))) (.mul (.num 28 1) (.pow (.var 1) 3))) (.mul (.num 4 1) (.pow (.var 1) 4))))))) (.add (.add (.add (.num 15 1) (.mul (.num 31 1) (.var 1))) (.mul (.num 20 1) (.pow (.var 1) 2))) (.mul (.num 4 1) (.pow (.var 1) 3))))) (.div (.mul (.mul (.mul (.num 48 1) (.pow (.var 1) 2)) (.add (.neg (.num 1 1)) (.mul (.num 2 1) (.var 1)))) (.add (.neg (.num 13 1)) (.mul (.num 4 1) (.var 1)))) (.mul (.add (.add (.add (.num 15 1) (.mul (.num 31 1) (.var 1))) (.mul (.num 20 1) (.pow (.var 1) 2))) (.mul (.num 4 1) (.pow (.var 1) 3))) (.sqrt (.mul (.mul (.var 1) (.add (.add (.num 3 1) (.mul (.num 7 1) (.var 1))) (.mul (.num 2 1) (.pow (.var 1) 2)))) (.add (.add (.add (.add (.num 30 1) (.mul (.num 77 1) (.var 1))) (.mul (.num 71 1) (.pow (.var 1) 2))) (.mul (.num 28 1) (.pow (.var 1) 3))) (.mul (.num 4 1) (.pow (.var 1) 4)))))))) (.div (.mul (.mul (.mul (.num 12 1) (.var 1)) (.add (.num 1 1) (.mul (.num 2 1) (.var 1)))) (.add (.sub (.num 1 1) (.mul (.num 15 1) (.var 1))) (.mul (.num 6 1) (.pow (.var 1) 2)))) (.mul (.add (.add (.num 15 1) (.mul (.num 16 1) (.var 1))) (.mul (.num 4 1) (.pow (.var 1) 2))) (.sqrt (.mul (.mul (.var 1) (.add (.num 2 1) (.var 1))) (.add (.add (.add (.add (.add (.num 45 1) (.mul (.num 198 1) (.var 1))) (.mul (.num 307 1) (.pow (.var 1) 2))) (.mul (.num 214 1) (.pow (.var 1) 3))) (.mul (.num 68 1) (.pow (.var 1) 4))) (.mul (.num 8 1) (.pow (.var 1) 5))))))))),
  .mul (.mul (.mul (.neg (.num 2 1)) (.sqrt (.num 2 3))) (.sqrt (.add (.add (.add (.num 6 1) (.mul (.num 13 1) (.var 1))) (.mul (.num 9 1) (.pow (.var 1) 2))) (.mul (.num 2 1) (.pow (.var 1) 3))))) (.add (.add (.add (.add (.div (.mul (.neg (.num 3 1)) (.add (.neg (.num 3 1)) (.mul (.num 2 1) (.var 1)))) (.sqrt (.div (.mul (.mul (.mul (.add (.num 2 1) (.var 1)) (.pow (.add (.num 3 1) (.var 1)) 2)) (.pow (.add (.num 5 1) (.mul (.num 2 1) (.var 1))) 3)) (.add (.add (.num 21 1) (.mul (.num 20 1) (.var 1))) (.mul (.num 4 1) (.pow (.var 1) 2)))) (.mul (.var 1) (.pow (.add (.num 1 1) (.mul (.num 2 1) (.var 1))) 2))))) (.div (.mul (.mul (.num 450 1) (.add (.neg (.num 1 1)) (.mul (.num 2 1) (.var 1)))) (.sqrt (.div (.var 1) (.mul (.mul (.pow (.add (.num 1 1) (.var 1)) 2) (.add (.num 7 1) (.mul (.num 2 1) (.var 1)))) (.add (.add (.add (.num 30 1) (.mul (.num 47 1) (.var 1))) (.mul (.num 24 1) (.pow (.var 1) 2))) (.mul (.num 4 1) (.pow (.var 1) 3))))))) (.add (.add (.add (.num 45 1) (.mul (.num 63 1) (.var 1))) (.mul (.num 28 1) (.pow (.var 1) 2))) (.mul (.num 4 1) (.pow (.var 1) 3))))) (.div (.mul (.mul (.mul (.num 6 1) (.var 1)) (.add (.num 1 1) (.mul (.num 2 1) (.var 1)))) (.add (.sub (.num 9 1) (.mul (.num 19 1) (.var 1))) (.mul (.num 2 1) (.pow (.var 1) 2)))) (.mul (.mul (.add (.num 3 1) (.var 1)) (.add (.add (.num 15 1) (.mul (.num 16 1) (.var 1))) (.mul (.num 4 1) (.pow (.var 1) 2)))) (.sqrt (.mul (.var 1) (.add (.add (.add (.add (.num 210 1) (.mul (.num 389 1) (.var 1))) (.mul (.num 262 1) (.pow (.var 1) 2))) (.mul (.num 76 1) (.pow (.var 1) 3))) (.mul (.num 8 1) (.pow (.var 1) 4)))))))) (.div (.mul (.mul (.mul (.num 54 1) (.var 1)) (.add (.num 1 1) (.mul (.num 2 1) (.var 1)))) (.add (.sub (.num 1 1) (.mul (.num 7 1) (.var 1))) (.mul (.num 2 1) (.pow (.var 1) 2)))) (.mul (.mul (.add (.add (.num 3 1) (.mul (.num 4 1) (.var 1))) (.pow (.var 1) 2)) (.add (.add (.num 15 1) (.mul (.num 16 1) (.var 1))) (.mul (.num 4 1) (.pow (.var 1) 2)))) (.sqrt (.mul (.var 1) (.add (.add (.add (.add (.num 210 1) (.mul (.num 389 1) (.var 1))) (.mul (.num 262 1) (.pow (.var 1) 2))) (.mul (.num 76 1) (.pow (.var 1) 3))) (.mul (.num 8 1) (.pow (.var 1) 4)))))))) (.div (.mul (.mul (.num 360 1) (.pow (.var 1) 2)) (.add (.neg (.num 3 1)) (.mul (.num 2 1) (.var 1)))) (.mul (.mul (.add (.num 1 1) (.var 1)) (.add (.add (.add (.num 45 1) (.mul (.num 63 1) (.var 1))) (.mul (.num 28 1) (.pow (.var 1) 2))) (.mul (.num 4 1) (.pow (.var 1) 3)))) (.sqrt (.mul (.var 1) (.add (.add (.add (.add (.num 210 1) (.mul (.num 389 1) (.var 1))) (.mul (.num 262 1) (.pow (.var 1) 2))) (.mul (.num 76 1) (.pow (.var 1) 3))) (.mul (.num 8 1) (.pow (.var 1) 4)))))))),
  .mul (.mul (.neg (.num 2 1)) (.sqrt (.add (.add (.add (.num 6 1) (.mul (.num 13 1) (.var 1))) (.mul (.num 9 1) (.pow (.var 1) 2))) (.mul (.num 2 1) (.pow (.var 1) 3))))) (.add (.add (.add (.add (.mul (.add (.neg (.num 6 1)) (.var 1)) (.sqrt (.div (.mul (.mul (.var 1) (.add (.num 1 1) (.var 1))) (.pow (.add (.num 1 1) (.mul (.num 2 1) (.var 1))) 2)) (.mul (.mul (.pow (.add (.num 5 1) (.mul (.num 2 1) (.var 1))) 3) (.add (.add (.num 8 1) (.mul (.num 6 1) (.var 1))) (.pow (.var 1) 2))) (.pow (.add (.add (.num 21 1) (.mul (.num 13 1) (.var 1))) (.mul (.num 2 1) (.pow (.var 1) 2))) 2))))) (.div (.mul (.mul (.mul (.num 8 1) (.add (.num 1 1) (.mul (.num 2 1) (.var 1)))) (.add (.neg (.num 9 1)) (.mul (.num 4 1) (.var 1)))) (.sqrt (.div (.mul (.var 1) (.add (.num 1 1) (.var 1))) (.mul (.pow (.add (.add (.num 21 1) (.mul (.num 13 1) (.var 1))) (.mul (.num 2 1) (.pow (.var 1) 2))) 2) (.add (.add (.add (.num 40 1) (.mul (.num 46 1) (.var 1))) (.mul (.num 17 1) (.pow (.var 1) 2))) (.mul (.num 2 1) (.pow (.var 1) 3))))))) (.add (.add (.num 15 1) (.mul (.num 16 1) (.var 1))) (.mul (.num 4 1) (.pow (.var 1) 2))))) (.div (.mul (.mul (.mul (.num 180 1) (.add (.neg (.num 1 1)) (.var 1))) (.var 1)) (.add (.num 1 1) (.mul (.num 2 1) (.var 1)))) (.mul (.mul (.add (.add (.num 21 1) (.mul (.num 13 1) (.var 1))) (.mul (.num 2 1) (.pow (.var 1) 2))) (.add (.add (.num 15 1) (.mul (.num 16 1) (.var 1))) (.mul (.num 4 1) (.pow (.var 1) 2)))) (.sqrt (.mul (.var 1) (.add (.add (.add (.add (.num 40 1) (.mul (.num 86 1) (.var 1))) (.mul (.num 63 1) (.pow (.var 1) 2))) (.mul (.num 19 1) (.pow (.var 1) 3))) (.mul (.num 2 1) (.pow (.var 1) 4)))))))) (.div (.mul (.mul (.num 120 1) (.var 1)) (.add (.neg (.num 3 1)) (.mul (.num 8 1) (.var 1)))) (.mul (.mul (.add (.add (.num 21 1) (.mul (.num 13 1) (.var 1))) (.mul (.num 2 1) (.pow (.var 1) 2))) (.add (.add (.num 15 1) (.mul (.num 16 1) (.var 1))) (.mul (.num 4 1) (.pow (.var 1) 2)))) (.sqrt (.mul (.var 1) (.add (.add (.add (.add (.num 40 1) (.mul (.num 86 1) (.var 1))) (.mul (.num 63 1) (.pow (.var 1) 2))) (.mul (.num 19 1) (.pow (.var 1) 3))) (.mul (.num 2 1) (.pow (.var 1) 4)))))))) (.div (.mul (.num 1050 1) (.sqrt (.div (.var 1) (.add (.add (.add (.add (.num 40 1) (.mul (.num 86 1) (.var 1))) (.mul (.num 63 1) (.pow (.var 1) 2))) (.mul (.num 19 1) (.pow (.var 1) 3))) (.mul (.num 2 1) (.pow (.var 1) 4)))))) (.add (.add (.add (.add (.num 315 1) (.mul (.num 531 1) (.var 1))) (.mul (.num 322 1) (.pow (.var 1) 2))) (.mul (.num 84 1) (.pow (.var 1) 3))) (.mul (.num 8 1) (.pow (.var 1) 4))))),
  .mul (.mul (.sqrt (.num 10 1)) (.sqrt (.add (.add (.add (.num 6 1) (.mul (.num 13 1) (.var 1))) (.mul (.num 9 1) (.pow (.var 1) 2))) (.mul (.num 2 1) (.pow (.var 1) 3))))) (.sub (.add (.sub (.add (.sub (.mul (.mul (.neg (.num 2 1)) (.sqrt (.div (.add (.num 1 1) (.mul (.num 2 1) (.var 1))) (.mul (.mul (.pow (.add (.num 3 1) (.var 1)) 2) (.add (.num 3 1) (.mul (.num 2 1) (.var 1)))) (.pow (.add (.num 5 1) (.mul (.num 2 1) (.var 1))) 3))))) (.add (.neg (.num 1 1)) (.mul (.num 3 1) (.var 1)))) (.div (.mul (.mul (.mul (.num 2 1) (.var 1)) (.add (.sub (.num 19 1) (.mul (.num 21 1) (.var 1))) (.mul (.num 2 1) (.pow (.var 1) 2)))) (.sqrt (.div (.add (.num 1 1) (.mul (.num 2 1) (.var 1))) (.pow (.add (.add (.num 15 1) (.mul (.num 16 1) (.var 1))) (.mul (.num 4 1) (.pow (.var 1) 2))) 3)))) (.add (.add (.num 6 1) (.mul (.num 5 1) (.var 1))) (.pow (.var 1) 2)))) (.div (.sqrt (.div (.add (.num 1 1) (.mul (.num 2 1) (.var 1))) (.add (.add (.num 15 1) (.mul (.num 16 1) (.var 1))) (.mul (.num 4 1) (.pow (.var 1) 2))))) (.add (.num 3 1) (.var 1)))) (.div (.mul (.mul (.mul (.mul (.num 2 1) (.var 1)) (.add (.neg (.num 1 1)) (.mul (.num 2 1) (.var 1)))) (.sqrt (.add (.num 1 1) (.mul (.num 2 1) (.var 1))))) (.add (.neg (.num 13 1)) (.mul (.num 4 1) (.var 1)))) (.mul (.hpow (.add (.add (.num 15 1) (.mul (.num 16 1) (.var 1))) (.mul (.num 4 1) (.pow (.var 1) 2))) 1) (.add (.add (.add (.num 6 1) (.mul (.num 11 1) (.var 1))) (.mul (.num 6 1) (.pow (.var 1) 2))) (.pow (.var 1) 3))))) (.div (.mul (.add (.num 1 1) (.mul (.num 2 1) (.var 1))) (.add (.sub (.num 1 1) (.mul (.num 15 1) (.var 1))) (.mul (.num 6 1) (.pow (.var 1) 2)))) (.mul (.mul (.add (.num 3 1) (.var 1)) (.add (.add (.num 10 1) (.mul (.num 9 1) (.var 1))) (.mul (.num 2 1) (.pow (.var 1) 2)))) (.sqrt (.add (.add (.add (.num 15 1) (.mul (.num 46 1) (.var 1))) (.mul (.num 36 1) (.pow (.var 1) 2))) (.mul (.num 8 1) (.pow (.var 1) 3))))))) (.div (.mul (.mul (.num 20 1) (.var 1)) (.add (.sub (.num 1 1) (.mul (.num 3 1) (.var 1))) (.mul (.num 2 1) (.pow (.var 1) 2)))) (.mul (.mul (.add (.add (.num 15 1) (.mul (.num 16 1) (.var 1))) (.mul (.num 4 1) (.pow (.var 1) 2))) (.add (.add (.add (.num 6 1) (.mul (.num 11 1) (.var 1))) (.mul (.num 6 1) (.pow (.var 1) 2))) (.pow (.var 1) 3))) (.sqrt (.add (.add (.add (.num 15 1) (.mul (.num 46 1) (.var 1))) (.mul (.num 36 1) (.pow (.var 1) 2))) (.mul (.num 8 1) (.pow (.var 1) 3))))))),
  .neg (.div (.sqrt (.num 30 1)) (.sqrt (.mul (.add (.num 5 1) (.mul (.num 2 1) (.var 1))) (.add (.add (.add (.num 6 1) (.mul (.num 13 1) (.var 1))) (.mul (.num 9 1) (.pow (.var 1) 2))) (.mul (.num 2 1) (.pow (.var 1) 3)))))),
  .neg (.mul (.mul (.sqrt (.num 15 1)) (.sqrt (.add (.add (.add (.num 6 1) (.mul (.num 13 1) (.var 1))) (.mul (.num 9 1) (.pow (.var 1) 2))) (.mul (.num 2 1) (.pow (.var 1) 3))))) (.add (.add (.add (.add (.add (.neg (.div (.mul (.add (.num 1 1) (.mul (.num 2 1) (.var 1))) (.sqrt (.div (.add (.add (.num 2 1) (.mul (.num 3 1) (.var 1))) (.pow (.var 1) 2)) (.mul (.add (.num 5 1) (.mul (.num 2 1) (.var 1))) (.pow (.add (.add (.num 28 1) (.mul (.num 15 1) (.var 1))) (.mul (.num 2 1) (.pow (.var 1) 2))) 2))))) (.add (.num 3 1) (.var 1)))) (.div (.mul (.mul (.mul (.num 2 1) (.add (.neg (.num 6 1)) (.var 1))) (.add (.num 1 1) (.mul (.num 2 1) (.var 1)))) (.sqrt (.div (.add (.add (.num 2 1) (.mul (.num 3 1) (.var 1))) (.pow (.var 1) 2)) (.mul (.add (.num 5 1) (.mul (.num 2 1) (.var 1))) (.pow (.add (.add (.num 28 1) (.mul (.num 15 1) (.var 1))) (.mul (.num 2 1) (.pow (.var 1) 2))) 2))))) (.add (.add (.num 15 1) (.mul (.num 11 1) (.var 1))) (.mul (.num 2 1) (.pow (.var 1) 2))))) (.mul (.mul (.num 4 1) (.add (.neg (.num 9 1)) (.mul (.num 4 1) (.var 1)))) (.sqrt (.div (.mul (.add (.num 1 1) (.var 1)) (.pow (.add (.num 1 1) (.mul (.num 2 1) (.var 1))) 2)) (.mul (.mul (.add (.num 2 1) (.var 1)) (.pow (.add (.num 5 1) (.mul (.num 2 1) (.var 1))) 3)) (.pow (.add (.add (.add (.num 84 1) (.mul (.num 73 1) (.var 1))) (.mul (.num 21 1) (.pow (.var 1) 2))) (.mul (.num 2 1) (.pow (.var 1) 3))) 2)))))) (.div (.mul (.mul (.mul (.num 120 1) (.add (.neg (.num 1 1)) (.var 1))) (.add (.num 1 1) (.mul (.num 2 1) (.var 1)))) (.sqrt (.div (.add (.num 1 1) (.var 1)) (.mul (.add (.add (.num 10 1) (.mul (.num 9 1) (.var 1))) (.mul (.num 2 1) (.pow (.var 1) 2))) (.pow (.add (.add (.num 28 1) (.mul (.num 15 1) (.var 1))) (.mul (.num 2 1) (.pow (.var 1) 2))) 2))))) (.add (.add (.add (.num 45 1) (.mul (.num 63 1) (.var 1))) (.mul (.num 28 1) (.pow (.var 1) 2))) (.mul (.num 4 1) (.pow (.var 1) 3))))) (.div (.mul (.num 420 1) (.var 1)) (.mul (.mul (.add (.add (.num 9 1) (.mul (.num 9 1) (.var 1))) (.mul (.num 2 1) (.pow (.var 1) 2))) (.sqrt (.add (.add (.add (.num 10 1) (.mul (.num 19 1) (.var 1))) (.mul (.num 11 1) (.pow (.var 1) 2))) (.mul (.num 2 1) (.pow (.var 1) 3))))) (.add (.add (.add (.num 140 1) (.mul (.num 131 1) (.var 1))) (.mul (.num 40 1) (.pow (.var 1) 2))) (.mul (.num 4 1) (.pow (.var 1) 3)))))) (.div (.mul (.mul (.num 30 1) (.add (.num 1 1) (.mul (.num 2 1) (.var 1)))) (.add (.neg (.num 3 1)) (.mul (.num 8 1) (.var 1)))) (.mul (.mul (.add (.num 5 1) (.mul (.num 2 1) (.var 1))) (.sqrt (.add (.add (.add (.num 10 1) (.mul (.num 19 1) (.var 1))) (.mul (.num 11 1) (.pow (.var 1) 2))) (.mul (.num 2 1) (.pow (.var 1) 3))))) (.add (.add (.add (.add (.num 252 1) (.mul (.num 387 1) (.var 1))) (.mul (.num 209 1) (.pow (.var 1) 2))) (.mul (.num 48 1) (.pow (.var 1) 3))) (.mul (.num 4 1) (.pow (.var 1) 4))))))),
  .neg (.div (.sqrt (.num 3 1)) (.sqrt (.add (.add (.num 3 1) (.mul (.num 8 1) (.var 1))) (.mul (.num 4 1) (.pow (.var 1) 2))))),
  .sub (.neg (.sqrt (.div (.mul (.var 1) (.add (.num 1 1) (.mul (.num 2 1) (.var 1)))) (.add (.add (.num 6 1) (.mul (.num 7 1) (.var 1))) (.mul (.num 2 1) (.pow (.var 1) 2)))))) (.mul (.num 3 1) (.sqrt (.div (.var 1) (.add (.add (.add (.num 6 1) (.mul (.num 19 1) (.var 1))) (.mul (.num 16 1) (.pow (.var 1) 2))) (.mul (.num 4 1) (.pow (.var 1) 3)))))),
  .neg (.div (.sqrt (.div (.add (.sub (.num 9 1) (.mul (.num 13 1) (.pow (.var 1) 2))) (.mul (.num 4 1) (.pow (.var 1) 4))) (.add (.neg (.num 1 1)) (.mul (.num 4 1) (.pow (.var 1) 2))))) (.var 1)),
  .div (.mul (.neg (.num 3 1)) (.sqrt (.add (.neg (.num 1 1)) (.pow (.var 1) 2)))) (.add (.var 1) (.mul (.num 2 1) (.pow (.var 1) 2))),
  .div (.mul (.num 6 1) (.sqrt (.div (.mul (.add (.neg (.div (.num 1 1) (.var 1))) (.var 1)) (.add (.add (.num 3 1) (.mul (.num 5 1) (.var 1))) (.mul (.num 2 1) (.pow (.var 1) 2)))) (.add (.neg (.num 3 1)) (.mul (.num 6 1) (.var 1)))))) (.mul (.add (.num 1 1) (.var 1)) (.add (.num 1 1) (.mul (.num 2 1) (.var 1)))),
  .div (.sub (.sub (.add (.mul (.num 6 1) (.sqrt (.add (.num 1 1) (.div (.num 1 1) (.var 1))))) (.mul (.num 10 1) (.sqrt (.mul (.var 1) (.add (.num 1 1) (.var 1)))))) (.mul (.num 6 1) (.sqrt (.mul (.pow (.var 1) 3) (.add (.num 1 1) (.var 1)))))) (.mul (.num 4 1) (.sqrt (.mul (.pow (.var 1) 5) (.add (.num 1 1) (.var 1)))))) (.mul (.add (.num 1 1) (.var 1)) (.pow (.add (.num 1 1) (.mul (.num 2 1) (.var 1))) 2)),
  .div (.mul (.mul (.neg (.num 2 1)) (.sqrt (.num 3 1))) (.add (.add (.neg (.num 2 1)) (.mul (.num 3 1) (.var 1))) (.mul (.num 2 1) (.pow (.var 1) 2)))) (.mul (.add (.num 1 1) (.mul (.num 2 1) (.var 1))) (.sqrt (.add (.add (.add (.sub (.neg (.num 6 1)) (.var 1)) (.mul (.num 17 1) (.pow (.var 1) 2))) (.mul (.num 16 1) (.pow (.var 1) 3))) (.mul (.num 4 1) (.pow (.var 1) 4))))),
  .div (.neg (.num 3 1)) (.add (.var 1) (.mul (.num 2 1) (.pow (.var 1) 2))),
  .neg (.div (.mul (.sqrt (.div (.add (.add (.num 3 1) (.mul (.num 5 1) (.var 1))) (.mul (.num 2 1) (.pow (.var 1) 2))) (.add (.num 1 1) (.mul (.num 2 1) (.var 1))))) (.sub (.add (.add (.mul (.num 9 1) (.sqrt (.div (.add (.num 1 1) (.var 1)) (.add (.num 1 1) (.mul (.num 2 1) (.var 1)))))) (.mul (.mul (.num 8 1) (.pow (.var 1) 3)) (.sqrt (.div (.add (.num 1 1) (.var 1)) (.add (.num 1 1) (.mul (.num 2 1) (.var 1))))))) (.mul (.mul (.num 3 1) (.var 1)) (.add (.mul (.neg (.num 5 1)) (.sqrt (.div (.add (.num 1 1) (.var 1)) (.add (.num 1 1) (.mul (.num 2 1) (.var 1)))))) (.sqrt (.add (.add (.num 1 1) (.mul (.num 3 1) (.var 1))) (.mul (.num 2 1) (.pow (.var 1) 2))))))) (.mul (.mul (.num 2 1) (.pow (.var 1) 2)) (.add (.mul (.num 5 1) (.sqrt (.div (.add (.num 1 1) (.var 1)) (.add (.num 1 1) (.mul (.num 2 1) (.var 1)))))) (.mul (.num 2 1) (.sqrt (.add (.add (.num 1 1) (.mul (.num 3 1) (.var 1))) (.mul (.num 2 1) (.pow (.var 1) 2))))))))) (.mul (.mul (.var 1) (.add (.num 1 1) (.var 1))) (.hpow (.add (.num 3 1) (.mul (.num 2 1) (.var 1))) 1))),
  .div (.sub (.sub (.add (.sub (.mul (.num 5 1) (.sqrt (.div (.mul (.pow (.var 1) 3) (.add (.add (.num 1 1) (.mul (.num 3 1) (.var 1))) (.mul (.num 2 1) (.pow (.var 1) 2)))) (.add (.num 2 1) (.var 1))))) (.mul (.num 2 1) (.sqrt (.div (.mul (.pow (.var 1) 5) (.add (.add (.num 1 1) (.mul (.num 3 1) (.var 1))) (.mul (.num 2 1) (.pow (.var 1) 2)))) (.add (.num 2 1) (.var 1)))))) (.mul (.mul (.num 24 1) (.var 1)) (.sqrt (.div (.mul (.var 1) (.add (.num 1 1) (.var 1))) (.add (.add (.num 2 1) (.mul (.num 5 1) (.var 1))) (.mul (.num 2 1) (.pow (.var 1) 2))))))) (.mul (.num 18 1) (.sqrt (.div (.mul (.mul (.pow (.sub (.num 1 1) (.mul (.num 2 1) (.var 1))) 2) (.var 1)) (.add (.num 1 1) (.var 1))) (.add (.add (.num 2 1) (.mul (.num 5 1) (.var 1))) (.mul (.num 2 1) (.pow (.var 1) 2))))))) (.mul (.num 24 1) (.sqrt (.div (.mul (.pow (.var 1) 5) (.add (.num 1 1) (.var 1))) (.add (.add (.num 2 1) (.mul (.num 5 1) (.var 1))) (.mul (.num 2 1) (.pow (.var 1) 2))))))) (.mul (.add (.num 3 1) (.mul (.num 2 1) (.var 1))) (.sqrt (.mul (.mul (.var 1) (.add (.num 1 1) (.var 1))) (.add (.add (.num 2 1) (.mul (.num 5 1) (.var 1))) (.mul (.num 2 1) (.pow (.var 1) 2)))))),
  .div (.mul (.neg (.num 3 1)) (.add (.add (.mul (.num 10 1) (.sqrt (.div (.mul (.var 1) (.add (.num 1 1) (.var 1))) (.add (.add (.num 10 1) (.mul (.num 9 1) (.var 1))) (.mul (.num 2 1) (.pow (.var 1) 2)))))) (.mul (.num 9 1) (.sqrt (.div (.mul (.pow (.var 1) 3) (.add (.num 1 1) (.var 1))) (.add (.add (.num 10 1) (.mul (.num 9 1) (.var 1))) (.mul (.num 2 1) (.pow (.var 1) 2))))))) (.mul (.num 2 1) (.sqrt (.div (.mul (.pow (.var 1) 5) (.add (.num 1 1) (.var 1))) (.add (.add (.num 10 1) (.mul (.num 9 1) (.var 1))) (.mul (.num 2 1) (.pow (.var 1) 2)))))))) (.mul (.add (.num 3 1) (.mul (.num 2 1) (.var 1))) (.sqrt (.mul (.mul (.var 1) (.add (.num 1 1) (.var 1))) (.add (.add (.num 10 1) (.mul (.num 9 1) (.var 1))) (.mul (.num 2 1) (.pow (.var 1) 2)))))),
  .div (.mul (.neg (.num 6 1)) (.add (.num 2 1) (.var 1))) (.mul (.sqrt (.add (.add (.num 2 1) (.mul (.num 3 1) (.var 1))) (.pow (.var 1) 2))) (.add (.add (.num 3 1) (.mul (.num 8 1) (.var 1))) (.mul (.num 4 1) (.pow (.var 1) 2)))),
  .mul (.mul (.mul (.num 2 1) (.sqrt (.num 3 1))) (.add (.num 5 1) (.mul (.num 2 1) (.var 1)))) (.sqrt (.div (.var 1) (.mul (.pow (.add (.num 3 1) (.mul (.num 2 1) (.var 1))) 2) (.add (.add (.add (.num 5 1) (.mul (.num 17 1) (.var 1))) (.mul (.num 16 1) (.pow (.var 1) 2))) (.mul (.num 4 1) (.pow (.var 1) 3)))))),
  .div (.sqrt (.add (.add (.sub (.sub (.num 3 1) (.mul (.num 4 1) (.var 1))) (.mul (.num 7 1) (.pow (.var 1) 2))) (.mul (.num 4 1) (.pow (.var 1) 3))) (.mul (.num 4 1) (.pow (.var 1) 4)))) (.add (.var 1) (.mul (.num 2 1) (.pow (.var 1) 2))),
  .div (.num 1 1) (.sqrt (.div (.mul (.var 1) (.pow (.add (.num 1 1) (.mul (.num 2 1) (.var 1))) 2)) (.add (.neg (.num 3 1)) (.mul (.num 6 1) (.var 1))))),
  .neg (.div (.sqrt (.div (.add (.add (.neg (.num 3 1)) (.mul (.num 4 1) (.var 1))) (.mul (.num 4 1) (.pow (.var 1) 2))) (.add (.add (.num 1 1) (.mul (.num 3 1) (.var 1))) (.mul (.num 2 1) (.pow (.var 1) 2))))) (.var 1)),
  .div (.add (.add (.neg (.num 3 1)) (.mul (.num 3 1) (.var 1))) (.mul (.num 2 1) (.pow (.var 1) 2))) (.sqrt (.mul (.mul (.var 1) (.add (.num 1 1) (.mul (.num 2 1) (.var 1)))) (.add (.add (.num 3 1) (.mul (.num 5 1) (.var 1))) (.mul (.num 2 1) (.pow (.var 1) 2))))),
  .div (.sqrt (.num 3 1)) (.sqrt (.add (.add (.num 3 1) (.mul (.num 5 1) (.var 1))) (.mul (.num 2 1) (.pow (.var 1) 2)))),
  .div (.sqrt (.num 3 1)) (.mul (.sqrt (.mul (.var 1) (.add (.num 1 1) (.var 1)))) (.add (.num 1 1) (.mul (.num 2 1) (.var 1)))),
  .div (.add (.sub (.add (.mul (.neg (.num 3 1)) (.sqrt (.div (.mul (.var 1) (.add (.num 1 1) (.mul (.num 2 1) (.var 1)))) (.add (.add (.num 2 1) (.mul (.num 3 1) (.var 1))) (.pow (.var 1) 2))))) (.mul (.mul (.num 2 1) (.var 1)) (.sqrt (.div (.mul (.var 1) (.add (.num 1 1) (.mul (.num 2 1) (.var 1)))) (.add (.add (.num 2 1) (.mul (.num 3 1) (.var 1))) (.pow (.var 1) 2)))))) (.mul (.num 2 1) (.sqrt (.div (.mul (.var 1) (.add (.add (.num 1 1) (.mul (.num 3 1) (.var 1))) (.mul (.num 2 1) (.pow (.var 1) 2)))) (.add (.num 2 1) (.var 1)))))) (.mul (.mul (.num 3 1) (.add (.neg (.num 1 1)) (.mul (.num 2 1) (.var 1)))) (.sqrt (.div (.var 1) (.add (.add (.add (.num 2 1) (.mul (.num 7 1) (.var 1))) (.mul (.num 7 1) (.pow (.var 1) 2))) (.mul (.num 2 1) (.pow (.var 1) 3))))))) (.sqrt (.add (.add (.num 3 1) (.mul (.num 8 1) (.var 1))) (.mul (.num 4 1) (.pow (.var 1) 2)))),
  .div (.add (.add (.mul (.add (.num 1 1) (.mul (.num 2 1) (.var 1))) (.sqrt (.div (.mul (.var 1) (.add (.num 1 1) (.var 1))) (.add (.add (.num 10 1) (.mul (.num 9 1) (.var 1))) (.mul (.num 2 1) (.pow (.var 1) 2)))))) (.mul (.num 6 1) (.sqrt (.div (.var 1) (.add (.add (.add (.num 10 1) (.mul (.num 19 1) (.var 1))) (.mul (.num 11 1) (.pow (.var 1) 2))) (.mul (.num 2 1) (.pow (.var 1) 3))))))) (.mul (.mul (.num 3 1) (.add (.num 1 1) (.mul (.num 2 1) (.var 1)))) (.sqrt (.div (.var 1) (.add (.add (.add (.num 10 1) (.mul (.num 19 1) (.var 1))) (.mul (.num 11 1) (.pow (.var 1) 2))) (.mul (.num 2 1) (.pow (.var 1) 3))))))) (.sqrt (.add (.add (.num 6 1) (.mul (.num 7 1) (.var 1))) (.mul (.num 2 1) (.pow (.var 1) 2)))),
  .sqrt (.div (.mul (.add (.sub (.num 6 1) (.mul (.num 7 1) (.var 1))) (.mul (.num 2 1) (.pow (.var 1) 2))) (.add (.add (.num 3 1) (.mul (.num 5 1) (.var 1))) (.mul (.num 2 1) (.pow (.var 1) 2)))) (.mul (.var 1) (.add (.sub (.sub (.num 1 1) (.var 1)) (.mul (.num 4 1) (.pow (.var 1) 2))) (.mul (.num 4 1) (.pow (.var 1) 3))))),
  .mul (.sqrt (.num 6 1)) (.sqrt (.div (.sub (.add (.num 3 1) (.var 1)) (.mul (.num 2 1) (.pow (.var 1) 2))) (.sub (.pow (.var 1) 2) (.mul (.num 4 1) (.pow (.var 1) 4))))),
  .neg (.div (.sqrt (.div (.sub (.num 18 1) (.mul (.num 8 1) (.pow (.var 1) 2))) (.sub (.add (.num 1 1) (.var 1)) (.mul (.num 2 1) (.pow (.var 1) 2))))) (.var 1)),
  .div (.add (.add (.neg (.num 9 1)) (.var 1)) (.mul (.num 2 1) (.pow (.var 1) 2))) (.mul (.var 1) (.add (.num 1 1) (.mul (.num 2 1) (.var 1)))),
  .div (.mul (.num 3 1) (.sqrt (.mul (.add (.add (.neg (.num 2 1)) (.var 1)) (.pow (.var 1) 2)) (.add (.add (.neg (.num 1 1)) (.var 1)) (.mul (.num 2 1) (.pow (.var 1) 2)))))) (.mul (.mul (.var 1) (.add (.num 1 1) (.var 1))) (.add (.num 1 1) (.mul (.num 2 1) (.var 1)))),
  .div (.mul (.num 3 1) (.sqrt (.num 2 1))) (.mul (.var 1) (.sqrt (.add (.neg (.num 1 1)) (.mul (.num 4 1) (.pow (.var 1) 2))))),
  .neg (.div (.mul (.add (.add (.neg (.num 9 1)) (.mul (.num 4 1) (.var 1))) (.mul (.num 4 1) (.pow (.var 1) 2))) (.sqrt (.div (.add (.add (.num 9 1) (.mul (.num 15 1) (.var 1))) (.mul (.num 6 1) (.pow (.var 1) 2))) (.add (.neg (.num 1 1)) (.mul (.num 4 1) (.pow (.var 1) 2)))))) (.mul (.mul (.var 1) (.add (.num 1 1) (.var 1))) (.add (.num 3 1) (.mul (.num 2 1) (.var 1))))),
  .div (.add (.add (.sub (.sub (.num 18 1) (.mul (.num 33 1) (.var 1))) (.mul (.num 13 1) (.pow (.var 1) 2))) (.mul (.num 12 1) (.pow (.var 1) 3))) (.mul (.num 4 1) (.pow (.var 1) 4))) (.mul (.mul (.var 1) (.add (.num 3 1) (.mul (.num 2 1) (.var 1)))) (.sqrt (.mul (.add (.num 1 1) (.var 1)) (.add (.add (.sub (.neg (.num 2 1)) (.var 1)) (.mul (.num 8 1) (.pow (.var 1) 2))) (.mul (.num 4 1) (.pow (.var 1) 3)))))),
  .mul (.mul (.num 3 1) (.sqrt (.add (.add (.num 3 1) (.mul (.num 5 1) (.var 1))) (.mul (.num 2 1) (.pow (.var 1) 2))))) (.add (.add (.div (.num 20 1) (.sqrt (.div (.mul (.mul (.pow (.add (.num 3 1) (.mul (.num 2 1) (.var 1))) 3) (.pow (.add (.add (.num 2 1) (.mul (.num 3 1) (.var 1))) (.pow (.var 1) 2)) 2)) (.add (.add (.num 5 1) (.mul (.num 12 1) (.var 1))) (.mul (.num 4 1) (.pow (.var 1) 2)))) (.add (.neg (.num 1 1)) (.mul (.num 2 1) (.var 1)))))) (.div (.mul (.mul (.var 1) (.add (.neg (.num 3 1)) (.mul (.num 2 1) (.var 1)))) (.add (.neg (.num 1 1)) (.mul (.num 2 1) (.var 1)))) (.mul (.mul (.hpow (.add (.num 3 1) (.mul (.num 2 1) (.var 1))) 1) (.add (.add (.num 2 1) (.mul (.num 3 1) (.var 1))) (.pow (.var 1) 2))) (.sqrt (.add (.add (.sub (.neg (.num 5 1)) (.mul (.num 2 1) (.var 1))) (.mul (.num 20 1) (.pow (.var 1) 2))) (.mul (.num 8 1) (.pow (.var 1) 3))))))) (.div (.mul (.mul (.num 2 1) (.add (.neg (.num 1 1)) (.mul (.num 2 1) (.var 1)))) (.add (.neg (.num 5 1)) (.mul (.num 6 1) (.var 1)))) (.mul (.mul (.add (.num 3 1) (.mul (.num 2 1) (.var 1))) (.add (.add (.num 2 1) (.mul (.num 3 1) (.var 1))) (.pow (.var 1) 2))) (.sqrt (.add (.add (.add (.sub (.neg (.num 15 1)) (.mul (.num 16 1) (.var 1))) (.mul (.num 56 1) (.pow (.var 1) 2))) (.mul (.num 64 1) (.pow (.var 1) 3))) (.mul (.num 16 1) (.pow (.var 1) 4))))))),
  .div (.mul (.mul (.num 3 1) (.sqrt (.num 3 1))) (.sqrt (.add (.add (.add (.sub (.neg (.num 6 1)) (.var 1)) (.mul (.num 17 1) (.pow (.var 1) 2))) (.mul (.num 16 1) (.pow (.var 1) 3))) (.mul (.num 4 1) (.pow (.var 1) 4))))) (.add (.add (.add (.mul (.num 3 1) (.var 1)) (.mul (.num 11 1) (.pow (.var 1) 2))) (.mul (.num 12 1) (.pow (.var 1) 3))) (.mul (.num 4 1) (.pow (.var 1) 4))),
  .div (.mul (.neg (.num 2 1)) (.add (.add (.neg (.num 3 1)) (.mul (.num 4 1) (.var 1))) (.mul (.num 2 1) (.pow (.var 1) 2)))) (.mul (.mul (.mul (.add (.num 1 1) (.var 1)) (.add (.num 1 1) (.mul (.num 2 1) (.var 1)))) (.add (.num 3 1) (.mul (.num 2 1) (.var 1)))) (.sqrt (.div (.mul (.var 1) (.add (.num 2 1) (.var 1))) (.add (.add (.num 9 1) (.mul (.num 15 1) (.var 1))) (.mul (.num 6 1) (.pow (.var 1) 2)))))),
  .div (.add (.add (.add (.sub (.mul (.neg (.num 60 1)) (.sqrt (.div (.mul (.var 1) (.add (.num 3 1) (.mul (.num 2 1) (.var 1)))) (.add (.num 5 1) (.mul (.num 2 1) (.var 1)))))) (.mul (.num 4 1) (.sqrt (.div (.mul (.pow (.var 1) 3) (.add (.num 3 1) (.mul (.num 2 1) (.var 1)))) (.add (.num 5 1) (.mul (.num 2 1) (.var 1))))))) (.mul (.num 53 1) (.sqrt (.div (.mul (.pow (.var 1) 5) (.add (.num 3 1) (.mul (.num 2 1) (.var 1)))) (.add (.num 5 1) (.mul (.num 2 1) (.var 1))))))) (.mul (.num 28 1) (.sqrt (.div (.mul (.pow (.var 1) 7) (.add (.num 3 1) (.mul (.num 2 1) (.var 1)))) (.add (.num 5 1) (.mul (.num 2 1) (.var 1))))))) (.mul (.num 4 1) (.sqrt (.div (.mul (.pow (.var 1) 9) (.add (.num 3 1) (.mul (.num 2 1) (.var 1)))) (.add (.num 5 1) (.mul (.num 2 1) (.var 1))))))) (.sqrt (.mul (.mul (.mul (.mul (.var 1) (.add (.num 1 1) (.var 1))) (.pow (.add (.num 2 1) (.var 1)) 3)) (.pow (.add (.num 3 1) (.mul (.num 2 1) (.var 1))) 2)) (.add (.add (.num 5 1) (.mul (.num 12 1) (.var 1))) (.mul (.num 4 1) (.pow (.var 1) 2))))),
  .div (.mul (.sqrt (.num 6 1)) (.add (.add (.add (.mul (.num 30 1) (.sqrt (.div (.mul (.var 1) (.add (.add (.num 3 1) (.mul (.num 5 1) (.var 1))) (.mul (.num 2 1) (.pow (.var 1) 2)))) (.add (.add (.num 15 1) (.mul (.num 11 1) (.var 1))) (.mul (.num 2 1) (.pow (.var 1) 2)))))) (.mul (.num 37 1) (.sqrt (.div (.mul (.pow (.var 1) 3) (.add (.add (.num 3 1) (.mul (.num 5 1) (.var 1))) (.mul (.num 2 1) (.pow (.var 1) 2)))) (.add (.add (.num 15 1) (.mul (.num 11 1) (.var 1))) (.mul (.num 2 1) (.pow (.var 1) 2))))))) (.mul (.num 15 1) (.sqrt (.div (.mul (.pow (.var 1) 5) (.add (.add (.num 3 1) (.mul (.num 5 1) (.var 1))) (.mul (.num 2 1) (.pow (.var 1) 2)))) (.add (.add (.num 15 1) (.mul (.num 11 1) (.var 1))) (.mul (.num 2 1) (.pow (.var 1) 2))))))) (.mul (.num 2 1) (.sqrt (.div (.mul (.pow (.var 1) 7) (.add (.add (.num 3 1) (.mul (.num 5 1) (.var 1))) (.mul (.num 2 1) (.pow (.var 1) 2)))) (.add (.add (.num 15 1) (.mul (.num 11 1) (.var 1))) (.mul (.num 2 1) (.pow (.var 1) 2)))))))) (.sqrt (.mul (.mul (.mul (.mul (.var 1) (.add (.num 1 1) (.var 1))) (.pow (.add (.num 2 1) (.var 1)) 3)) (.pow (.add (.num 3 1) (.mul (.num 2 1) (.var 1))) 2)) (.add (.add (.num 15 1) (.mul (.num 11 1) (.var 1))) (.mul (.num 2 1) (.pow (.var 1) 2))))),
  .mul (.sqrt (.add (.add (.num 6 1) (.mul (.num 10 1) (.var 1))) (.mul (.num 4 1) (.pow (.var 1) 2)))) (.add (.add (.add (.add (.mul (.mul (.num 3 1) (.add (.neg (.num 2 1)) (.var 1))) (.sqrt (.div (.mul (.pow (.sub (.num 1 1) (.mul (.num 2 1) (.var 1))) 2) (.add (.num 1 1) (.mul (.num 2 1) (.var 1)))) (.mul (.mul (.pow (.add (.num 1 1) (.var 1)) 2) (.add (.num 5 1) (.mul (.num 2 1) (.var 1)))) (.pow (.add (.add (.num 6 1) (.mul (.num 7 1) (.var 1))) (.mul (.num 2 1) (.pow (.var 1) 2))) 3))))) (.div (.sub (.add (.num 2 1) (.mul (.num 2 1) (.var 1))) (.mul (.num 4 1) (.pow (.var 1) 2))) (.mul (.add (.num 2 1) (.var 1)) (.sqrt (.mul (.add (.num 5 1) (.mul (.num 2 1) (.var 1))) (.add (.add (.add (.num 6 1) (.mul (.num 19 1) (.var 1))) (.mul (.num 16 1) (.pow (.var 1) 2))) (.mul (.num 4 1) (.pow (.var 1) 3)))))))) (.sqrt (.div (.add (.num 1 1) (.mul (.num 2 1) (.var 1))) (.add (.add (.add (.num 30 1) (.mul (.num 47 1) (.var 1))) (.mul (.num 24 1) (.pow (.var 1) 2))) (.mul (.num 4 1) (.pow (.var 1) 3)))))) (.div (.mul (.num 6 1) (.add (.sub (.num 1 1) (.mul (.num 3 1) (.var 1))) (.mul (.num 2 1) (.pow (.var 1) 2)))) (.mul (.mul (.add (.num 1 1) (.var 1)) (.add (.add (.num 6 1) (.mul (.num 7 1) (.var 1))) (.mul (.num 2 1) (.pow (.var 1) 2)))) (.sqrt (.add (.add (.add (.add (.num 30 1) (.mul (.num 107 1) (.var 1))) (.mul (.num 118 1) (.pow (.var 1) 2))) (.mul (.num 52 1) (.pow (.var 1) 3))) (.mul (.num 8 1) (.pow (.var 1) 4))))))) (.div (.add (.sub (.add (.num 6 1) (.var 1)) (.mul (.num 20 1) (.pow (.var 1) 2))) (.mul (.num 4 1) (.pow (.var 1) 3))) (.mul (.add (.add (.num 6 1) (.mul (.num 7 1) (.var 1))) (.mul (.num 2 1) (.pow (.var 1) 2))) (.sqrt (.add (.add (.add (.add (.num 30 1) (.mul (.num 107 1) (.var 1))) (.mul (.num 118 1) (.pow (.var 1) 2))) (.mul (.num 52 1) (.pow (.var 1) 3))) (.mul (.num 8 1) (.pow (.var 1) 4))))))),
  .mul (.mul (.mul (.neg (.num 4 1)) (.sqrt (.num 2 1))) (.add (.num 3 1) (.var 1))) (.sqrt (.div (.var 1) (.mul (.mul (.add (.num 1 1) (.mul (.num 2 1) (.var 1))) (.pow (.add (.num 3 1) (.mul (.num 2 1) (.var 1))) 2)) (.add (.add (.num 6 1) (.mul (.num 5 1) (.var 1))) (.pow (.var 1) 2))))),
  .neg (.sqrt (.div (.mul (.add (.sub (.num 10 1) (.mul (.num 9 1) (.var 1))) (.mul (.num 2 1) (.pow (.var 1) 2))) (.add (.add (.num 3 1) (.mul (.num 5 1) (.var 1))) (.mul (.num 2 1) (.pow (.var 1) 2)))) (.mul (.var 1) (.add (.sub (.add (.num 3 1) (.var 1)) (.mul (.num 8 1) (.pow (.var 1) 2))) (.mul (.num 4 1) (.pow (.var 1) 3)))))),
  .neg (.mul (.sqrt (.num 15 1)) (.sqrt (.div (.mul (.add (.neg (.num 2 1)) (.var 1)) (.add (.num 1 1) (.var 1))) (.mul (.var 1) (.add (.sub (.sub (.num 1 1) (.var 1)) (.mul (.num 4 1) (.pow (.var 1) 2))) (.mul (.num 4 1) (.pow (.var 1) 3))))))),
  .div (.mul (.mul (.num 2 1) (.sqrt (.num 5 1))) (.sqrt (.mul (.add (.neg (.num 2 1)) (.var 1)) (.add (.num 3 1) (.mul (.num 2 1) (.var 1)))))) (.sqrt (.mul (.mul (.var 1) (.add (.neg (.num 3 1)) (.mul (.num 2 1) (.var 1)))) (.add (.neg (.num 1 1)) (.mul (.num 4 1) (.pow (.var 1) 2))))),
  .div (.mul (.neg (.num 2 1)) (.add (.neg (.num 6 1)) (.pow (.var 1) 2))) (.mul (.var 1) (.sqrt (.add (.neg (.num 1 1)) (.mul (.num 4 1) (.pow (.var 1) 2))))),
  .div (.mul (.mul (.mul (.neg (.num 2 1)) (.sqrt (.num 6 1))) (.add (.add (.neg (.num 6 1)) (.var 1)) (.mul (.num 2 1) (.pow (.var 1) 2)))) (.sqrt (.div (.add (.neg (.num 1 1)) (.var 1)) (.add (.sub (.num 6 1) (.mul (.num 13 1) (.var 1))) (.mul (.num 4 1) (.pow (.var 1) 3)))))) (.mul (.var 1) (.add (.num 1 1) (.mul (.num 2 1) (.var 1)))),
  .neg (.div (.sqrt (.num 30 1)) (.sqrt (.mul (.mul (.add (.neg (.num 1 1)) (.var 1)) (.var 1)) (.add (.neg (.num 1 1)) (.mul (.num 4 1) (.pow (.var 1) 2)))))),
  .div (.mul (.add (.add (.neg (.num 27 1)) (.mul (.num 4 1) (.var 1))) (.mul (.num 8 1) (.pow (.var 1) 2))) (.sqrt (.div (.add (.num 6 1) (.mul (.num 4 1) (.var 1))) (.add (.sub (.var 1) (.mul (.num 3 1) (.pow (.var 1) 2))) (.mul (.num 2 1) (.pow (.var 1) 3)))))) (.add (.add (.num 3 1) (.mul (.num 8 1) (.var 1))) (.mul (.num 4 1) (.pow (.var 1) 2))),
  .div (.sub (.sub (.add (.add (.neg (.num 54 1)) (.mul (.num 35 1) (.var 1))) (.mul (.num 31 1) (.pow (.var 1) 2))) (.mul (.num 8 1) (.pow (.var 1) 3))) (.mul (.num 4 1) (.pow (.var 1) 4))) (.mul (.mul (.mul (.add (.num 1 1) (.var 1)) (.add (.num 1 1) (.mul (.num 2 1) (.var 1)))) (.add (.num 3 1) (.mul (.num 2 1) (.var 1)))) (.sqrt (.div (.mul (.var 1) (.add (.add (.sub (.num 2 1) (.mul (.num 5 1) (.var 1))) (.pow (.var 1) 2)) (.mul (.num 2 1) (.pow (.var 1) 3)))) (.add (.add (.num 3 1) (.mul (.num 5 1) (.var 1))) (.mul (.num 2 1) (.pow (.var 1) 2)))))),
  .mul (.sqrt (.add (.add (.num 9 1) (.mul (.num 15 1) (.var 1))) (.mul (.num 6 1) (.pow (.var 1) 2)))) (.sub (.sub (.div (.neg (.num 100 1)) (.sqrt (.div (.mul (.mul (.mul (.var 1) (.pow (.add (.num 3 1) (.mul (.num 2 1) (.var 1))) 3)) (.pow (.add (.add (.num 1 1) (.mul (.num 3 1) (.var 1))) (.mul (.num 2 1) (.pow (.var 1) 2))) 2)) (.add (.add (.num 10 1) (.mul (.num 9 1) (.var 1))) (.mul (.num 2 1) (.pow (.var 1) 2)))) (.add (.sub (.num 1 1) (.mul (.num 3 1) (.var 1))) (.mul (.num 2 1) (.pow (.var 1) 2)))))) (.mul (.mul (.mul (.num 16 1) (.add (.neg (.num 1 1)) (.var 1))) (.add (.neg (.num 5 1)) (.mul (.num 3 1) (.var 1)))) (.sqrt (.div (.add (.neg (.num 1 1)) (.mul (.num 2 1) (.var 1))) (.mul (.mul (.mul (.var 1) (.pow (.add (.num 3 1) (.mul (.num 2 1) (.var 1))) 3)) (.pow (.add (.add (.num 1 1) (.mul (.num 3 1) (.var 1))) (.mul (.num 2 1) (.pow (.var 1) 2))) 2)) (.add (.add (.add (.neg (.num 10 1)) (.var 1)) (.mul (.num 7 1) (.pow (.var 1) 2))) (.mul (.num 2 1) (.pow (.var 1) 3)))))))) (.div (.mul (.add (.sub (.num 1 1) (.mul (.num 3 1) (.var 1))) (.mul (.num 2 1) (.pow (.var 1) 2))) (.add (.sub (.num 10 1) (.mul (.num 21 1) (.var 1))) (.mul (.num 6 1) (.pow (.var 1) 2)))) (.mul (.mul (.add (.num 3 1) (.mul (.num 2 1) (.var 1))) (.add (.add (.num 1 1) (.mul (.num 3 1) (.var 1))) (.mul (.num 2 1) (.pow (.var 1) 2)))) (.sqrt (.mul (.var 1) (.add (.add (.add (.sub (.sub (.num 30 1) (.mul (.num 43 1) (.var 1))) (.mul (.num 57 1) (.pow (.var 1) 2))) (.mul (.num 26 1) (.pow (.var 1) 3))) (.mul (.num 36 1) (.pow (.var 1) 4))) (.mul (.num 8 1) (.pow (.var 1) 5)))))))),
  .div (.mul (.mul (.neg (.num 6 1)) (.sqrt (.num 6 1))) (.add (.add (.neg (.num 2 1)) (.var 1)) (.pow (.var 1) 2))) (.mul (.mul (.var 1) (.add (.num 1 1) (.mul (.num 2 1) (.var 1)))) (.sqrt (.mul (.add (.num 3 1) (.mul (.num 2 1) (.var 1))) (.add (.add (.sub (.num 2 1) (.mul (.num 5 1) (.var 1))) (.pow (.var 1) 2)) (.mul (.num 2 1) (.pow (.var 1) 3)))))),
  .div (.mul (.num 6 1) (.add (.add (.neg (.num 6 1)) (.mul (.num 3 1) (.var 1))) (.mul (.num 2 1) (.pow (.var 1) 2)))) (.mul (.mul (.var 1) (.add (.num 1 1) (.mul (.num 2 1) (.var 1)))) (.add (.num 3 1) (.mul (.num 2 1) (.var 1)))),
  .mul (.sqrt (.add (.add (.num 3 1) (.mul (.num 5 1) (.var 1))) (.mul (.num 2 1) (.pow (.var 1) 2)))) (.sub (.sub (.sub (.mul (.neg (.num 300 1)) (.sqrt (.div (.mul (.pow (.add (.neg (.num 1 1)) (.var 1)) 2) (.add (.neg (.num 1 1)) (.mul (.num 2 1) (.var 1)))) (.mul (.mul (.mul (.var 1) (.pow (.add (.num 1 1) (.mul (.num 2 1) (.var 1))) 2)) (.add (.add (.num 5 1) (.mul (.num 7 1) (.var 1))) (.mul (.num 2 1) (.pow (.var 1) 2)))) (.pow (.add (.add (.num 6 1) (.mul (.num 7 1) (.var 1))) (.mul (.num 2 1) (.pow (.var 1) 2))) 3))))) (.div (.mul (.mul (.mul (.num 9 1) (.add (.neg (.num 1 1)) (.mul (.num 2 1) (.var 1)))) (.add (.sub (.num 10 1) (.mul (.num 21 1) (.var 1))) (.mul (.num 6 1) (.pow (.var 1) 2)))) (.sqrt (.div (.var 1) (.add (.add (.add (.neg (.num 5 1)) (.mul (.num 3 1) (.var 1))) (.mul (.num 12 1) (.pow (.var 1) 2))) (.mul (.num 4 1) (.pow (.var 1) 3)))))) (.mul (.add (.num 1 1) (.mul (.num 2 1) (.var 1))) (.hpow (.add (.add (.num 6 1) (.mul (.num 7 1) (.var 1))) (.mul (.num 2 1) (.pow (.var 1) 2))) 1)))) (.div (.mul (.mul (.var 1) (.add (.neg (.num 1 1)) (.mul (.num 2 1) (.var 1)))) (.add (.sub (.num 10 1) (.mul (.num 15 1) (.var 1))) (.mul (.num 2 1) (.pow (.var 1) 2)))) (.mul (.hpow (.add (.add (.num 6 1) (.mul (.num 7 1) (.var 1))) (.mul (.num 2 1) (.pow (.var 1) 2))) 1) (.sqrt (.mul (.var 1) (.add (.add (.add (.neg (.num 5 1)) (.mul (.num 3 1) (.var 1))) (.mul (.num 12 1) (.pow (.var 1) 2))) (.mul (.num 4 1) (.pow (.var 1) 3)))))))) (.div (.mul (.mul (.num 36 1) (.pow (.sub (.num 1 1) (.mul (.num 2 1) (.var 1))) 2)) (.add (.neg (.num 5 1)) (.mul (.num 3 1) (.var 1)))) (.mul (.add (.add (.add (.num 6 1) (.mul (.num 19 1) (.var 1))) (.mul (.num 16 1) (.pow (.var 1) 2))) (.mul (.num 4 1) (.pow (.var 1) 3))) (.sqrt (.mul (.var 1) (.add (.add (.add (.add (.sub (.neg (.num 30 1)) (.mul (.num 17 1) (.var 1))) (.mul (.num 83 1) (.pow (.var 1) 2))) (.mul (.num 114 1) (.pow (.var 1) 3))) (.mul (.num 52 1) (.pow (.var 1) 4))) (.mul (.num 8 1) (.pow (.var 1) 5)))))))),
  .mul (.mul (.mul (.num 2 1) (.sqrt (.num 6 1))) (.sqrt (.add (.add (.num 3 1) (.mul (.num 5 1) (.var 1))) (.mul (.num 2 1) (.pow (.var 1) 2))))) (.sub (.sub (.sub (.neg (.mul (.mul (.mul (.add (.neg (.num 2 1)) (.var 1)) (.var 1)) (.add (.neg (.num 1 1)) (.mul (.num 2 1) (.var 1)))) (.sqrt (.div (.add (.num 1 1) (.mul (.num 2 1) (.var 1))) (.mul (.mul (.pow (.add (.num 5 1) (.mul (.num 2 1) (.var 1))) 2) (.pow (.add (.add (.num 6 1) (.mul (.num 7 1) (.var 1))) (.mul (.num 2 1) (.pow (.var 1) 2))) 3)) (.add (.add (.add (.neg (.num 3 1)) (.mul (.num 2 1) (.var 1))) (.mul (.num 7 1) (.pow (.var 1) 2))) (.mul (.num 2 1) (.pow (.var 1) 3)))))))) (.div (.mul (.mul (.mul (.num 3 1) (.var 1)) (.add (.neg (.num 1 1)) (.mul (.num 2 1) (.var 1)))) (.add (.neg (.num 7 1)) (.mul (.num 6 1) (.var 1)))) (.mul (.mul (.add (.num 5 1) (.mul (.num 2 1) (.var 1))) (.hpow (.add (.add (.num 6 1) (.mul (.num 7 1) (.var 1))) (.mul (.num 2 1) (.pow (.var 1) 2))) 1)) (.sqrt (.add (.add (.add (.sub (.neg (.num 3 1)) (.mul (.num 4 1) (.var 1))) (.mul (.num 11 1) (.pow (.var 1) 2))) (.mul (.num 16 1) (.pow (.var 1) 3))) (.mul (.num 4 1) (.pow (.var 1) 4))))))) (.div (.mul (.num 75 1) (.sqrt (.div (.add (.neg (.num 1 1)) (.mul (.num 2 1) (.var 1))) (.add (.add (.add (.add (.add (.num 18 1) (.mul (.num 81 1) (.var 1))) (.mul (.num 130 1) (.pow (.var 1) 2))) (.mul (.num 95 1) (.pow (.var 1) 3))) (.mul (.num 32 1) (.pow (.var 1) 4))) (.mul (.num 4 1) (.pow (.var 1) 5)))))) (.add (.add (.add (.num 30 1) (.mul (.num 47 1) (.var 1))) (.mul (.num 24 1) (.pow (.var 1) 2))) (.mul (.num 4 1) (.pow (.var 1) 3))))) (.div (.mul (.mul (.num 15 1) (.add (.neg (.num 1 1)) (.mul (.num 2 1) (.var 1)))) (.add (.neg (.num 3 1)) (.mul (.num 4 1) (.var 1)))) (.mul (.mul (.add (.num 5 1) (.mul (.num 2 1) (.var 1))) (.add (.add (.num 6 1) (.mul (.num 7 1) (.var 1))) (.mul (.num 2 1) (.pow (.var 1) 2)))) (.sqrt (.add (.add (.add (.add (.add (.sub (.neg (.num 18 1)) (.mul (.num 45 1) (.var 1))) (.mul (.num 32 1) (.pow (.var 1) 2))) (.mul (.num 165 1) (.pow (.var 1) 3))) (.mul (.num 158 1) (.pow (.var 1) 4))) (.mul (.num 60 1) (.pow (.var 1) 5))) (.mul (.num 8 1) (.pow (.var 1) 6))))))),
  .mul (.mul (.sqrt (.num 6 1)) (.sqrt (.add (.add (.num 3 1) (.mul (.num 5 1) (.var 1))) (.mul (.num 2 1) (.pow (.var 1) 2))))) (.add (.sub (.sub (.add (.neg (.mul (.mul (.var 1) (.sqrt (.div (.add (.neg (.num 1 1)) (.mul (.num 2 1) (.var 1))) (.mul (.mul (.mul (.var 1) (.pow (.add (.num 3 1) (.mul (.num 2 1) (.var 1))) 3)) (.add (.num 5 1) (.mul (.num 2 1) (.var 1)))) (.pow (.add (.add (.num 2 1) (.mul (.num 3 1) (.var 1))) (.pow (.var 1) 2)) 2))))) (.add (.sub (.num 18 1) (.mul (.num 17 1) (.var 1))) (.mul (.num 2 1) (.pow (.var 1) 2))))) (.div (.mul (.mul (.num 4 1) (.add (.sub (.num 2 1) (.mul (.num 5 1) (.var 1))) (.mul (.num 2 1) (.pow (.var 1) 2)))) (.sqrt (.div (.var 1) (.add (.add (.neg (.num 5 1)) (.mul (.num 8 1) (.var 1))) (.mul (.num 4 1) (.pow (.var 1) 2)))))) (.mul (.add (.num 2 1) (.var 1)) (.hpow (.add (.num 3 1) (.mul (.num 2 1) (.var 1))) 1)))) (.div (.mul (.mul (.mul (.mul (.num 16 1) (.add (.neg (.num 3 1)) (.var 1))) (.add (.neg (.num 1 1)) (.var 1))) (.var 1)) (.sqrt (.div (.add (.neg (.num 1 1)) (.mul (.num 2 1) (.var 1))) (.mul (.mul (.var 1) (.pow (.add (.add (.num 2 1) (.mul (.num 3 1) (.var 1))) (.pow (.var 1) 2)) 2)) (.add (.add (.num 15 1) (.mul (.num 16 1) (.var 1))) (.mul (.num 4 1) (.pow (.var 1) 2))))))) (.add (.add (.num 3 1) (.mul (.num 8 1) (.var 1))) (.mul (.num 4 1) (.pow (.var 1) 2))))) (.mul (.num 10 1) (.sqrt (.div (.mul (.add (.neg (.num 1 1)) (.mul (.num 2 1) (.var 1))) (.pow (.add (.sub (.num 3 1) (.mul (.num 5 1) (.var 1))) (.mul (.num 2 1) (.pow (.var 1) 2))) 2)) (.mul (.mul (.mul (.var 1) (.pow (.add (.num 3 1) (.mul (.num 2 1) (.var 1))) 3)) (.add (.num 5 1) (.mul (.num 2 1) (.var 1)))) (.pow (.add (.add (.add (.num 2 1) (.mul (.num 7 1) (.var 1))) (.mul (.num 7 1) (.pow (.var 1) 2))) (.mul (.num 2 1) (.pow (.var 1) 3))) 2)))))) (.mul (.sub (.num 1 1) (.mul (.num 2 1) (.var 1))) (.sqrt (.div (.var 1) (.mul (.pow (.add (.num 2 1) (.var 1)) 2) (.add (.add (.add (.neg (.num 15 1)) (.mul (.num 14 1) (.var 1))) (.mul (.num 28 1) (.pow (.var 1) 2))) (.mul (.num 8 1) (.pow (.var 1) 3)))))))),
  .div (.mul (.sqrt (.num 2 1)) (.add (.add (.neg (.num 15 1)) (.mul (.num 20 1) (.var 1))) (.mul (.num 8 1) (.pow (.var 1) 2)))) (.mul (.add (.num 3 1) (.mul (.num 2 1) (.var 1))) (.sqrt (.mul (.mul (.var 1) (.add (.num 1 1) (.var 1))) (.add (.add (.num 5 1) (.mul (.num 12 1) (.var 1))) (.mul (.num 4 1) (.pow (.var 1) 2)))))),
  .mul (.sqrt (.add (.add (.num 3 1) (.mul (.num 5 1) (.var 1))) (.mul (.num 2 1) (.pow (.var 1) 2)))) (.sub (.sub (.sub (.sub (.mul (.mul (.mul (.neg (.num 48 1)) (.add (.neg (.num 2 1)) (.var 1))) (.var 1)) (.sqrt (.div (.add (.add (.num 1 1) (.mul (.num 3 1) (.var 1))) (.mul (.num 2 1) (.pow (.var 1) 2))) (.mul (.pow (.add (.add (.num 6 1) (.mul (.num 5 1) (.var 1))) (.pow (.var 1) 2)) 2) (.pow (.add (.add (.num 15 1) (.mul (.num 16 1) (.var 1))) (.mul (.num 4 1) (.pow (.var 1) 2))) 3))))) (.div (.mul (.var 1) (.add (.neg (.num 9 1)) (.mul (.num 2 1) (.var 1)))) (.mul (.add (.add (.num 10 1) (.mul (.num 9 1) (.var 1))) (.mul (.num 2 1) (.pow (.var 1) 2))) (.sqrt (.div (.mul (.pow (.add (.num 3 1) (.var 1)) 2) (.add (.add (.num 15 1) (.mul (.num 16 1) (.var 1))) (.mul (.num 4 1) (.pow (.var 1) 2)))) (.add (.add (.num 1 1) (.mul (.num 3 1) (.var 1))) (.mul (.num 2 1) (.pow (.var 1) 2)))))))) (.div (.mul (.mul (.num 36 1) (.var 1)) (.add (.neg (.num 7 1)) (.mul (.num 6 1) (.var 1)))) (.mul (.sqrt (.div (.mul (.pow (.add (.num 3 1) (.var 1)) 2) (.add (.add (.add (.num 15 1) (.mul (.num 31 1) (.var 1))) (.mul (.num 20 1) (.pow (.var 1) 2))) (.mul (.num 4 1) (.pow (.var 1) 3)))) (.add (.num 1 1) (.mul (.num 2 1) (.var 1))))) (.add (.add (.add (.num 30 1) (.mul (.num 47 1) (.var 1))) (.mul (.num 24 1) (.pow (.var 1) 2))) (.mul (.num 4 1) (.pow (.var 1) 3)))))) (.div (.mul (.mul (.num 240 1) (.var 1)) (.add (.neg (.num 3 1)) (.mul (.num 4 1) (.var 1)))) (.mul (.mul (.add (.num 3 1) (.var 1)) (.add (.add (.add (.num 30 1) (.mul (.num 47 1) (.var 1))) (.mul (.num 24 1) (.pow (.var 1) 2))) (.mul (.num 4 1) (.pow (.var 1) 3)))) (.sqrt (.add (.add (.add (.add (.num 15 1) (.mul (.num 61 1) (.var 1))) (.mul (.num 82 1) (.pow (.var 1) 2))) (.mul (.num 44 1) (.pow (.var 1) 3))) (.mul (.num 8 1) (.pow (.var 1) 4))))))) (.div (.mul (.num 450 1) (.add (.neg (.num 1 1)) (.mul (.num 2 1) (.var 1)))) (.mul (.mul (.add (.num 2 1) (.var 1)) (.add (.add (.add (.num 45 1) (.mul (.num 63 1) (.var 1))) (.mul (.num 28 1) (.pow (.var 1) 2))) (.mul (.num 4 1) (.pow (.var 1) 3)))) (.sqrt (.add (.add (.add (.add (.num 15 1) (.mul (.num 61 1) (.var 1))) (.mul (.num 82 1) (.pow (.var 1) 2))) (.mul (.num 44 1) (.pow (.var 1) 3))) (.mul (.num 8 1) (.pow (.var 1) 4))))))),
  .neg (.div (.mul (.sqrt (.num 15 1)) (.add (.add (.add (.sqrt (.div (.mul (.mul (.mul (.pow (.var 1) 3) (.add (.num 2 1) (.var 1))) (.pow (.add (.num 1 1) (.mul (.num 2 1) (.var 1))) 2)) (.pow (.add (.add (.num 3 1) (.mul (.num 5 1) (.var 1))) (.mul (.num 2 1) (.pow (.var 1) 2))) 3)) (.add (.add (.num 21 1) (.mul (.num 13 1) (.var 1))) (.mul (.num 2 1) (.pow (.var 1) 2))))) (.mul (.num 210 1) (.sqrt (.div (.mul (.var 1) (.add (.add (.add (.num 6 1) (.mul (.num 13 1) (.var 1))) (.mul (.num 9 1) (.pow (.var 1) 2))) (.mul (.num 2 1) (.pow (.var 1) 3)))) (.add (.add (.num 21 1) (.mul (.num 13 1) (.var 1))) (.mul (.num 2 1) (.pow (.var 1) 2))))))) (.mul (.num 120 1) (.sqrt (.div (.mul (.pow (.var 1) 5) (.add (.add (.add (.num 6 1) (.mul (.num 13 1) (.var 1))) (.mul (.num 9 1) (.pow (.var 1) 2))) (.mul (.num 2 1) (.pow (.var 1) 3)))) (.add (.add (.num 21 1) (.mul (.num 13 1) (.var 1))) (.mul (.num 2 1) (.pow (.var 1) 2))))))) (.mul (.mul (.num 4 1) (.var 1)) (.add (.mul (.num 4 1) (.sqrt (.div (.mul (.mul (.mul (.var 1) (.pow (.add (.num 1 1) (.var 1)) 3)) (.pow (.add (.num 1 1) (.mul (.num 2 1) (.var 1))) 2)) (.add (.add (.num 6 1) (.mul (.num 7 1) (.var 1))) (.mul (.num 2 1) (.pow (.var 1) 2)))) (.add (.add (.num 21 1) (.mul (.num 13 1) (.var 1))) (.mul (.num 2 1) (.pow (.var 1) 2)))))) (.mul (.num 75 1) (.sqrt (.div (.mul (.var 1) (.add (.add (.add (.num 6 1) (.mul (.num 13 1) (.var 1))) (.mul (.num 9 1) (.pow (.var 1) 2))) (.mul (.num 2 1) (.pow (.var 1) 3)))) (.add (.add (.num 21 1) (.mul (.num 13 1) (.var 1))) (.mul (.num 2 1) (.pow (.var 1) 2)))))))))) (.sqrt (.mul (.mul (.mul (.mul (.var 1) (.add (.num 1 1) (.var 1))) (.pow (.add (.num 3 1) (.mul (.num 2 1) (.var 1))) 2)) (.pow (.add (.add (.num 10 1) (.mul (.num 9 1) (.var 1))) (.mul (.num 2 1) (.pow (.var 1) 2))) 3)) (.add (.add (.num 21 1) (.mul (.num 13 1) (.var 1))) (.mul (.num 2 1) (.pow (.var 1) 2)))))),
  .mul (.mul (.sqrt (.num 10 3)) (.sqrt (.add (.add (.num 3 1) (.mul (.num 5 1) (.var 1))) (.mul (.num 2 1) (.pow (.var 1) 2))))) (.sub (.sub (.sub (.sub (.sub (.mul (.add (.neg (.num 5 1)) (.mul (.num 4 1) (.var 1))) (.sqrt (.div (.add (.add (.num 1 1) (.mul (.num 3 1) (.var 1))) (.mul (.num 2 1) (.pow (.var 1) 2))) (.mul (.pow (.add (.num 5 1) (.mul (.num 2 1) (.var 1))) 3) (.add (.add (.add (.num 18 1) (.mul (.num 27 1) (.var 1))) (.mul (.num 13 1) (.pow (.var 1) 2))) (.mul (.num 2 1) (.pow (.var 1) 3))))))) (.mul (.mul (.num 6 1) (.add (.neg (.num 5 1)) (.mul (.num 3 1) (.var 1)))) (.sqrt (.div (.mul (.pow (.sub (.num 1 1) (.mul (.num 2 1) (.var 1))) 2) (.add (.num 1 1) (.mul (.num 2 1) (.var 1)))) (.mul (.add (.add (.num 3 1) (.mul (.num 4 1) (.var 1))) (.pow (.var 1) 2)) (.pow (.add (.add (.add (.num 30 1) (.mul (.num 47 1) (.var 1))) (.mul (.num 24 1) (.pow (.var 1) 2))) (.mul (.num 4 1) (.pow (.var 1) 3))) 3)))))) (.mul (.mul (.num 3 1) (.add (.sub (.num 10 1) (.mul (.num 21 1) (.var 1))) (.mul (.num 6 1) (.pow (.var 1) 2)))) (.sqrt (.div (.add (.add (.num 1 1) (.mul (.num 3 1) (.var 1))) (.mul (.num 2 1) (.pow (.var 1) 2))) (.mul (.add (.num 3 1) (.var 1)) (.pow (.add (.add (.add (.num 30 1) (.mul (.num 47 1) (.var 1))) (.mul (.num 24 1) (.pow (.var 1) 2))) (.mul (.num 4 1) (.pow (.var 1) 3))) 3)))))) (.sqrt (.div (.add (.add (.num 1 1) (.mul (.num 3 1) (.var 1))) (.mul (.num 2 1) (.pow (.var 1) 2))) (.add (.add (.add (.add (.num 90 1) (.mul (.num 171 1) (.var 1))) (.mul (.num 119 1) (.pow (.var 1) 2))) (.mul (.num 36 1) (.pow (.var 1) 3))) (.mul (.num 4 1) (.pow (.var 1) 4)))))) (.div (.mul (.mul (.add (.num 1 1) (.mul (.num 2 1) (.var 1))) (.add (.sub (.num 10 1) (.mul (.num 15 1) (.var 1))) (.mul (.num 2 1) (.pow (.var 1) 2)))) (.sqrt (.div (.add (.num 1 1) (.var 1)) (.add (.add (.add (.add (.add (.num 90 1) (.mul (.num 351 1) (.var 1))) (.mul (.num 461 1) (.pow (.var 1) 2))) (.mul (.num 274 1) (.pow (.var 1) 3))) (.mul (.num 76 1) (.pow (.var 1) 4))) (.mul (.num 8 1) (.pow (.var 1) 5)))))) (.add (.add (.num 10 1) (.mul (.num 9 1) (.var 1))) (.mul (.num 2 1) (.pow (.var 1) 2))))) (.div (.mul (.num 30 1) (.add (.sub (.num 1 1) (.mul (.num 3 1) (.var 1))) (.mul (.num 2 1) (.pow (.var 1) 2)))) (.mul (.add (.add (.add (.num 30 1) (.mul (.num 47 1) (.var 1))) (.mul (.num 24 1) (.pow (.var 1) 2))) (.mul (.num 4 1) (.pow (.var 1) 3))) (.sqrt (.add (.add (.add (.add (.add (.add (.num 90 1) (.mul (.num 441 1) (.var 1))) (.mul (.num 812 1) (.pow (.var 1) 2))) (.mul (.num 735 1) (.pow (.var 1) 3))) (.mul (.num 350 1) (.pow (.var 1) 4))) (.mul (.num 84 1) (.pow (.var 1) 5))) (.mul (.num 8 1) (.pow (.var 1) 6))))))),
  .mul (.mul (.sqrt (.num 5 1)) (.sqrt (.add (.add (.num 3 1) (.mul (.num 5 1) (.var 1))) (.mul (.num 2 1) (.pow (.var 1) 2))))) (.sub (.sub (.sub (.add (.add (.mul (.mul (.neg (.num 12 1)) (.add (.neg (.num 2 1)) (.var 1))) (.sqrt (.div (.mul (.var 1) (.add (.add (.num 1 1) (.mul (.num 3 1) (.var 1))) (.mul (.num 2 1) (.pow (.var 1) 2)))) (.mul (.mul (.pow (.add (.num 3 1) (.var 1)) 2) (.add (.num 7 1) (.mul (.num 2 1) (.var 1)))) (.pow (.add (.add (.num 10 1) (.mul (.num 9 1) (.var 1))) (.mul (.num 2 1) (.pow (.var 1) 2))) 3))))) (.mul (.sub (.num 9 1) (.mul (.num 2 1) (.var 1))) (.sqrt (.div (.mul (.var 1) (.add (.add (.num 1 1) (.mul (.num 3 1) (.var 1))) (.mul (.num 2 1) (.pow (.var 1) 2)))) (.mul (.mul (.pow (.add (.num 3 1) (.var 1)) 2) (.pow (.add (.num 5 1) (.mul (.num 2 1) (.var 1))) 3)) (.add (.add (.num 14 1) (.mul (.num 11 1) (.var 1))) (.mul (.num 2 1) (.pow (.var 1) 2)))))))) (.sqrt (.div (.mul (.var 1) (.add (.add (.num 1 1) (.mul (.num 3 1) (.var 1))) (.mul (.num 2 1) (.pow (.var 1) 2)))) (.mul (.pow (.add (.num 3 1) (.var 1)) 2) (.add (.add (.add (.num 70 1) (.mul (.num 83 1) (.var 1))) (.mul (.num 32 1) (.pow (.var 1) 2))) (.mul (.num 4 1) (.pow (.var 1) 3))))))) (.div (.mul (.mul (.num 12 1) (.add (.neg (.num 7 1)) (.mul (.num 6 1) (.var 1)))) (.sqrt (.div (.mul (.var 1) (.add (.add (.num 1 1) (.mul (.num 3 1) (.var 1))) (.mul (.num 2 1) (.pow (.var 1) 2)))) (.add (.add (.add (.num 70 1) (.mul (.num 83 1) (.var 1))) (.mul (.num 32 1) (.pow (.var 1) 2))) (.mul (.num 4 1) (.pow (.var 1) 3)))))) (.add (.add (.add (.add (.num 90 1) (.mul (.num 171 1) (.var 1))) (.mul (.num 119 1) (.pow (.var 1) 2))) (.mul (.num 36 1) (.pow (.var 1) 3))) (.mul (.num 4 1) (.pow (.var 1) 4))))) (.div (.mul (.mul (.num 90 1) (.add (.neg (.num 1 1)) (.mul (.num 2 1) (.var 1)))) (.sqrt (.div (.var 1) (.mul (.pow (.add (.add (.num 9 1) (.mul (.num 9 1) (.var 1))) (.mul (.num 2 1) (.pow (.var 1) 2))) 2) (.add (.add (.add (.add (.add (.num 70 1) (.mul (.num 293 1) (.var 1))) (.mul (.num 421 1) (.pow (.var 1) 2))) (.mul (.num 266 1) (.pow (.var 1) 3))) (.mul (.num 76 1) (.pow (.var 1) 4))) (.mul (.num 8 1) (.pow (.var 1) 5))))))) (.add (.add (.num 10 1) (.mul (.num 9 1) (.var 1))) (.mul (.num 2 1) (.pow (.var 1) 2))))) (.div (.mul (.mul (.mul (.num 30 1) (.add (.num 1 1) (.mul (.num 2 1) (.var 1)))) (.add (.neg (.num 3 1)) (.mul (.num 4 1) (.var 1)))) (.sqrt (.div (.var 1) (.mul (.pow (.add (.add (.num 9 1) (.mul (.num 9 1) (.var 1))) (.mul (.num 2 1) (.pow (.var 1) 2))) 2) (.add (.add (.add (.add (.add (.num 70 1) (.mul (.num 293 1) (.var 1))) (.mul (.num 421 1) (.pow (.var 1) 2))) (.mul (.num 266 1) (.pow (.var 1) 3))) (.mul (.num 76 1) (.pow (.var 1) 4))) (.mul (.num 8 1) (.pow (.var 1) 5))))))) (.add (.add (.num 10 1) (.mul (.num 9 1) (.var 1))) (.mul (.num 2 1) (.pow (.var 1) 2))))),
  .mul (.mul (.neg (.num 2 1)) (.add (.num 4 1) (.var 1))) (.sqrt (.div (.var 1) (.add (.add (.add (.num 60 1) (.mul (.num 79 1) (.var 1))) (.mul (.num 32 1) (.pow (.var 1) 2))) (.mul (.num 4 1) (.pow (.var 1) 3))))),
  .div (.mul (.neg (.num 2 1)) (.sqrt (.mul (.add (.neg (.num 2 1)) (.var 1)) (.add (.num 1 1) (.var 1))))) (.add (.neg (.num 1 1)) (.mul (.num 2 1) (.var 1))),
  .mul (.mul (.neg (.num 2 1)) (.sqrt (.num 3 1))) (.sqrt (.div (.mul (.add (.num 1 1) (.var 1)) (.add (.neg (.num 3 1)) (.mul (.num 2 1) (.var 1)))) (.mul (.mul (.pow (.sub (.num 1 1) (.mul (.num 2 1) (.var 1))) 2) (.var 1)) (.add (.num 1 1) (.mul (.num 2 1) (.var 1)))))),
  .div (.mul (.num 6 1) (.sqrt (.div (.add (.neg (.num 1 1)) (.var 1)) (.var 1)))) (.sub (.num 1 1) (.mul (.num 4 1) (.pow (.var 1) 2))),
  .div (.add (.mul (.mul (.neg (.num 2 1)) (.add (.neg (.num 2 1)) (.var 1))) (.sqrt (.div (.add (.num 1 1) (.var 1)) (.add (.neg (.num 1 1)) (.mul (.num 2 1) (.var 1)))))) (.sqrt (.add (.add (.neg (.num 1 1)) (.var 1)) (.mul (.num 2 1) (.pow (.var 1) 2))))) (.sqrt (.add (.add (.neg (.num 1 1)) (.var 1)) (.mul (.num 2 1) (.pow (.var 1) 2)))),
  .div (.sub (.num 13 1) (.mul (.num 4 1) (.pow (.var 1) 2))) (.add (.neg (.num 1 1)) (.mul (.num 4 1) (.pow (.var 1) 2))),
  .neg (.div (.sub (.sub (.num 13 1) (.mul (.num 4 1) (.var 1))) (.mul (.num 8 1) (.pow (.var 1) 2))) (.sub (.sub (.add (.num 1 1) (.var 1)) (.mul (.num 4 1) (.pow (.var 1) 2))) (.mul (.num 4 1) (.pow (.var 1) 3)))),
  .div (.neg (.num 3 1)) (.add (.add (.num 1 1) (.mul (.num 3 1) (.var 1))) (.mul (.num 2 1) (.pow (.var 1) 2))),
  .div (.mul (.mul (.num 2 1) (.sqrt (.num 3 1))) (.sqrt (.add (.add (.neg (.num 7 1)) (.div (.num 3 1) (.var 1))) (.mul (.num 4 1) (.pow (.var 1) 2))))) (.add (.neg (.num 1 1)) (.mul (.num 4 1) (.pow (.var 1) 2))),
  .div (.mul (.neg (.num 2 1)) (.add (.add (.neg (.num 3 1)) (.var 1)) (.pow (.var 1) 2))) (.mul (.sqrt (.mul (.var 1) (.add (.num 1 1) (.var 1)))) (.add (.num 1 1) (.mul (.num 2 1) (.var 1)))),
  .div (.mul (.mul (.neg (.num 2 1)) (.sqrt (.num 3 1))) (.add (.add (.mul (.num 6 1) (.sqrt (.div (.mul (.var 1) (.add (.add (.neg (.num 1 1)) (.var 1)) (.mul (.num 2 1) (.pow (.var 1) 2)))) (.add (.add (.num 2 1) (.mul (.num 5 1) (.var 1))) (.mul (.num 2 1) (.pow (.var 1) 2)))))) (.mul (.mul (.num 6 1) (.var 1)) (.sqrt (.div (.mul (.var 1) (.add (.add (.neg (.num 1 1)) (.var 1)) (.mul (.num 2 1) (.pow (.var 1) 2)))) (.add (.add (.num 2 1) (.mul (.num 5 1) (.var 1))) (.mul (.num 2 1) (.pow (.var 1) 2))))))) (.sqrt (.div (.mul (.pow (.var 1) 3) (.add (.add (.sub (.neg (.num 1 1)) (.var 1)) (.mul (.num 4 1) (.pow (.var 1) 2))) (.mul (.num 4 1) (.pow (.var 1) 3)))) (.add (.num 2 1) (.var 1)))))) (.sqrt (.mul (.mul (.mul (.var 1) (.pow (.add (.num 1 1) (.var 1)) 2)) (.add (.num 1 1) (.mul (.num 2 1) (.var 1)))) (.pow (.add (.num 3 1) (.mul (.num 2 1) (.var 1))) 3))),
  .div (.add (.add (.add (.sub (.sub (.add (.mul (.num 15 1) (.sqrt (.div (.mul (.var 1) (.add (.neg (.num 1 1)) (.mul (.num 2 1) (.var 1)))) (.add (.num 3 1) (.mul (.num 2 1) (.var 1)))))) (.mul (.mul (.num 10 1) (.var 1)) (.sqrt (.div (.mul (.var 1) (.add (.neg (.num 1 1)) (.mul (.num 2 1) (.var 1)))) (.add (.num 3 1) (.mul (.num 2 1) (.var 1))))))) (.mul (.num 6 1) (.sqrt (.div (.mul (.pow (.var 1) 5) (.add (.neg (.num 1 1)) (.mul (.num 2 1) (.var 1)))) (.add (.num 3 1) (.mul (.num 2 1) (.var 1))))))) (.mul (.num 4 1) (.sqrt (.div (.mul (.pow (.var 1) 7) (.add (.neg (.num 1 1)) (.mul (.num 2 1) (.var 1)))) (.add (.num 3 1) (.mul (.num 2 1) (.var 1))))))) (.sqrt (.mul (.var 1) (.add (.add (.neg (.num 3 1)) (.mul (.num 4 1) (.var 1))) (.mul (.num 4 1) (.pow (.var 1) 2)))))) (.mul (.mul (.num 3 1) (.var 1)) (.sqrt (.mul (.var 1) (.add (.add (.neg (.num 3 1)) (.mul (.num 4 1) (.var 1))) (.mul (.num 4 1) (.pow (.var 1) 2))))))) (.mul (.num 2 1) (.sqrt (.mul (.pow (.var 1) 5) (.add (.add (.neg (.num 3 1)) (.mul (.num 4 1) (.var 1))) (.mul (.num 4 1) (.pow (.var 1) 2))))))) (.mul (.mul (.add (.num 1 1) (.var 1)) (.add (.num 1 1) (.mul (.num 2 1) (.var 1)))) (.sqrt (.add (.add (.add (.neg (.num 6 1)) (.mul (.num 5 1) (.var 1))) (.mul (.num 12 1) (.pow (.var 1) 2))) (.mul (.num 4 1) (.pow (.var 1) 3))))),
  .div (.mul (.sqrt (.div (.add (.num 1 1) (.var 1)) (.add (.add (.num 2 1) (.mul (.num 5 1) (.var 1))) (.mul (.num 2 1) (.pow (.var 1) 2))))) (.sub (.sub (.sub (.mul (.mul (.neg (.num 6 1)) (.add (.num 1 1) (.mul (.num 2 1) (.var 1)))) (.sqrt (.div (.mul (.var 1) (.add (.add (.neg (.num 1 1)) (.var 1)) (.mul (.num 2 1) (.pow (.var 1) 2)))) (.add (.add (.num 15 1) (.mul (.num 16 1) (.var 1))) (.mul (.num 4 1) (.pow (.var 1) 2)))))) (.mul (.add (.num 1 1) (.mul (.num 2 1) (.var 1))) (.sqrt (.div (.mul (.var 1) (.add (.add (.add (.neg (.num 3 1)) (.var 1)) (.mul (.num 8 1) (.pow (.var 1) 2))) (.mul (.num 4 1) (.pow (.var 1) 3)))) (.add (.num 5 1) (.mul (.num 2 1) (.var 1))))))) (.mul (.num 12 1) (.sqrt (.div (.mul (.var 1) (.add (.neg (.num 1 1)) (.mul (.num 2 1) (.var 1)))) (.add (.add (.add (.num 15 1) (.mul (.num 31 1) (.var 1))) (.mul (.num 20 1) (.pow (.var 1) 2))) (.mul (.num 4 1) (.pow (.var 1) 3))))))) (.mul (.mul (.num 9 1) (.add (.num 1 1) (.mul (.num 2 1) (.var 1)))) (.sqrt (.div (.mul (.var 1) (.add (.neg (.num 1 1)) (.mul (.num 2 1) (.var 1)))) (.add (.add (.add (.num 15 1) (.mul (.num 31 1) (.var 1))) (.mul (.num 20 1) (.pow (.var 1) 2))) (.mul (.num 4 1) (.pow (.var 1) 3)))))))) (.add (.add (.num 3 1) (.mul (.num 5 1) (.var 1))) (.mul (.num 2 1) (.pow (.var 1) 2))),
  .sqrt (.div (.sub (.add (.num 3 1) (.var 1)) (.mul (.num 2 1) (.pow (.var 1) 2))) (.sub (.var 1) (.mul (.num 2 1) (.pow (.var 1) 2)))),
  .div (.mul (.num 4 1) (.sqrt (.div (.sub (.num 1 1) (.pow (.var 1) 2)) (.sub (.var 1) (.mul (.num 2 1) (.pow (.var 1) 2)))))) (.add (.num 1 1) (.mul (.num 2 1) (.var 1))),
  .neg (.div (.sqrt (.num 3 1)) (.sqrt (.mul (.var 1) (.add (.neg (.num 1 1)) (.mul (.num 2 1) (.var 1)))))),
  .div (.add (.add (.neg (.num 4 1)) (.var 1)) (.mul (.num 2 1) (.pow (.var 1) 2))) (.sqrt (.mul (.mul (.var 1) (.add (.num 1 1) (.var 1))) (.add (.neg (.num 1 1)) (.mul (.num 4 1) (.pow (.var 1) 2))))),
  .div (.add (.mul (.num 3 1) (.sqrt (.div (.add (.neg (.num 1 1)) (.mul (.num 2 1) (.var 1))) (.mul (.var 1) (.add (.add (.num 3 1) (.mul (.num 5 1) (.var 1))) (.mul (.num 2 1) (.pow (.var 1) 2))))))) (.mul (.num 2 1) (.sqrt (.div (.mul (.var 1) (.add (.neg (.num 1 1)) (.mul (.num 2 1) (.var 1)))) (.add (.add (.num 3 1) (.mul (.num 5 1) (.var 1))) (.mul (.num 2 1) (.pow (.var 1) 2))))))) (.sqrt (.add (.add (.num 1 1) (.mul (.num 3 1) (.var 1))) (.mul (.num 2 1) (.pow (.var 1) 2)))),
  .div (.sub (.sub (.add (.mul (.neg (.num 7 1)) (.sqrt (.div (.add (.neg (.num 1 1)) (.mul (.num 2 1) (.var 1))) (.add (.num 1 1) (.var 1))))) (.mul (.mul (.num 4 1) (.pow (.var 1) 2)) (.sqrt (.div (.add (.neg (.num 1 1)) (.mul (.num 2 1) (.var 1))) (.add (.num 1 1) (.var 1)))))) (.mul (.num 2 1) (.sqrt (.add (.add (.neg (.num 1 1)) (.var 1)) (.mul (.num 2 1) (.pow (.var 1) 2)))))) (.mul (.mul (.num 4 1) (.var 1)) (.sqrt (.add (.add (.neg (.num 1 1)) (.var 1)) (.mul (.num 2 1) (.pow (.var 1) 2)))))) (.mul (.mul (.sqrt (.num 3 1)) (.add (.num 1 1) (.mul (.num 2 1) (.var 1)))) (.sqrt (.add (.add (.neg (.num 3 1)) (.mul (.num 4 1) (.var 1))) (.mul (.num 4 1) (.pow (.var 1) 2))))),
  .div (.add (.add (.mul (.num 2 1) (.sqrt (.div (.mul (.var 1) (.add (.neg (.num 1 1)) (.mul (.num 4 1) (.pow (.var 1) 2)))) (.add (.add (.num 2 1) (.mul (.num 3 1) (.var 1))) (.pow (.var 1) 2))))) (.mul (.num 3 1) (.sqrt (.div (.mul (.var 1) (.add (.neg (.num 1 1)) (.mul (.num 2 1) (.var 1)))) (.add (.add (.add (.num 2 1) (.mul (.num 7 1) (.var 1))) (.mul (.num 7 1) (.pow (.var 1) 2))) (.mul (.num 2 1) (.pow (.var 1) 3))))))) (.sqrt (.div (.mul (.var 1) (.add (.add (.sub (.neg (.num 1 1)) (.var 1)) (.mul (.num 4 1) (.pow (.var 1) 2))) (.mul (.num 4 1) (.pow (.var 1) 3)))) (.add (.num 2 1) (.var 1))))) (.sqrt (.mul (.add (.num 1 1) (.var 1)) (.add (.add (.num 3 1) (.mul (.num 8 1) (.var 1))) (.mul (.num 4 1) (.pow (.var 1) 2))))),
  .sqrt (.div (.mul (.add (.num 1 1) (.var 1)) (.add (.neg (.num 5 1)) (.mul (.num 2 1) (.var 1)))) (.add (.sub (.num 1 1) (.mul (.num 3 1) (.var 1))) (.mul (.num 2 1) (.pow (.var 1) 2)))),
  .div (.mul (.num 4 1) (.sqrt (.div (.sub (.add (.num 4 1) (.mul (.num 2 1) (.var 1))) (.mul (.num 2 1) (.pow (.var 1) 2))) (.sub (.add (.num 1 1) (.var 1)) (.mul (.num 2 1) (.pow (.var 1) 2)))))) (.add (.neg (.num 1 1)) (.mul (.num 2 1) (.var 1))),
  .mul (.num 3 1) (.sqrt (.div (.add (.neg (.num 6 1)) (.mul (.num 4 1) (.var 1))) (.mul (.mul (.pow (.sub (.num 1 1) (.mul (.num 2 1) (.var 1))) 2) (.var 1)) (.add (.sub (.neg (.num 1 1)) (.var 1)) (.mul (.num 2 1) (.pow (.var 1) 2)))))),
  .neg (.div (.sqrt (.num 6 1)) (.sqrt (.add (.sub (.num 1 1) (.mul (.num 3 1) (.var 1))) (.mul (.num 2 1) (.pow (.var 1) 2))))),
  .neg (.div (.sub (.add (.mul (.num 9 1) (.sqrt (.add (.num 1 1) (.div (.num 1 1) (.var 1))))) (.sqrt (.mul (.var 1) (.add (.num 1 1) (.var 1))))) (.mul (.num 2 1) (.sqrt (.mul (.pow (.var 1) 3) (.add (.num 1 1) (.var 1)))))) (.sqrt (.add (.sub (.num 1 1) (.mul (.num 5 1) (.pow (.var 1) 2))) (.mul (.num 4 1) (.pow (.var 1) 4))))),
  .div (.mul (.mul (.num 2 1) (.add (.neg (.num 5 1)) (.mul (.num 2 1) (.pow (.var 1) 2)))) (.sqrt (.div (.add (.num 3 1) (.mul (.num 3 1) (.var 1))) (.add (.sub (.sub (.add (.var 1) (.pow (.var 1) 2)) (.mul (.num 6 1) (.pow (.var 1) 3))) (.mul (.num 4 1) (.pow (.var 1) 4))) (.mul (.num 8 1) (.pow (.var 1) 5)))))) (.add (.num 1 1) (.var 1)),
  .div (.mul (.mul (.num 3 1) (.sqrt (.num 3 1))) (.add (.add (.neg (.num 3 1)) (.var 1)) (.mul (.num 2 1) (.pow (.var 1) 2)))) (.mul (.mul (.add (.num 1 1) (.var 1)) (.add (.num 1 1) (.mul (.num 2 1) (.var 1)))) (.sqrt (.mul (.var 1) (.add (.sub (.num 3 1) (.mul (.num 7 1) (.var 1))) (.mul (.num 4 1) (.pow (.var 1) 3)))))),
  .neg (.mul (.sqrt (.add (.num 1 1) (.var 1))) (.add (.add (.mul (.neg (.num 8 1)) (.sqrt (.div (.mul (.pow (.add (.neg (.num 2 1)) (.var 1)) 2) (.add (.neg (.num 3 1)) (.mul (.num 2 1) (.var 1)))) (.mul (.mul (.pow (.sub (.num 1 1) (.mul (.num 2 1) (.var 1))) 2) (.var 1)) (.add (.add (.add (.num 3 1) (.mul (.num 11 1) (.var 1))) (.mul (.num 12 1) (.pow (.var 1) 2))) (.mul (.num 4 1) (.pow (.var 1) 3))))))) (.div (.sub (.num 7 1) (.mul (.num 2 1) (.var 1))) (.sqrt (.div (.mul (.var 1) (.add (.add (.add (.num 3 1) (.mul (.num 11 1) (.var 1))) (.mul (.num 12 1) (.pow (.var 1) 2))) (.mul (.num 4 1) (.pow (.var 1) 3)))) (.add (.neg (.num 3 1)) (.mul (.num 2 1) (.var 1))))))) (.div (.mul (.mul (.num 2 1) (.var 1)) (.add (.neg (.num 3 1)) (.mul (.num 2 1) (.var 1)))) (.sqrt (.mul (.var 1) (.add (.add (.sub (.sub (.neg (.num 9 1)) (.mul (.num 27 1) (.var 1))) (.mul (.num 14 1) (.pow (.var 1) 2))) (.mul (.num 12 1) (.pow (.var 1) 3))) (.mul (.num 8 1) (.pow (.var 1) 4)))))))),
  .mul (.sqrt (.add (.num 1 1) (.var 1))) (.add (.add (.mul (.num 18 1) (.sqrt (.div (.mul (.pow (.sub (.num 3 1) (.mul (.num 2 1) (.var 1))) 2) (.add (.neg (.num 1 1)) (.var 1))) (.mul (.mul (.mul (.pow (.sub (.num 1 1) (.mul (.num 2 1) (.var 1))) 2) (.var 1)) (.pow (.add (.num 1 1) (.var 1)) 3)) (.add (.add (.num 3 1) (.mul (.num 8 1) (.var 1))) (.mul (.num 4 1) (.pow (.var 1) 2))))))) (.div (.mul (.num 12 1) (.add (.neg (.num 2 1)) (.var 1))) (.mul (.hpow (.add (.num 1 1) (.var 1)) 1) (.sqrt (.div (.mul (.var 1) (.add (.add (.num 3 1) (.mul (.num 8 1) (.var 1))) (.mul (.num 4 1) (.pow (.var 1) 2)))) (.add (.neg (.num 1 1)) (.var 1))))))) (.div (.mul (.add (.sub (.num 7 1) (.mul (.num 9 1) (.var 1))) (.mul (.num 2 1) (.pow (.var 1) 2))) (.sqrt (.div (.var 1) (.add (.add (.sub (.neg (.num 3 1)) (.mul (.num 5 1) (.var 1))) (.mul (.num 4 1) (.pow (.var 1) 2))) (.mul (.num 4 1) (.pow (.var 1) 3)))))) (.hpow (.add (.num 1 1) (.var 1)) 1))),
  .div (.mul (.mul (.sqrt (.num 3 1)) (.sqrt (.add (.num 1 1) (.var 1)))) (.add (.add (.div (.mul (.num 3 1) (.add (.neg (.num 7 1)) (.mul (.num 6 1) (.var 1)))) (.sqrt (.div (.mul (.var 1) (.add (.num 1 1) (.mul (.num 2 1) (.var 1)))) (.add (.neg (.num 1 1)) (.mul (.num 2 1) (.var 1)))))) (.div (.mul (.num 48 1) (.add (.neg (.num 1 1)) (.var 1))) (.sqrt (.mul (.var 1) (.add (.neg (.num 1 1)) (.mul (.num 4 1) (.pow (.var 1) 2))))))) (.div (.mul (.mul (.mul (.num 2 1) (.var 1)) (.add (.neg (.num 3 1)) (.mul (.num 2 1) (.var 1)))) (.add (.neg (.num 1 1)) (.mul (.num 2 1) (.var 1)))) (.sqrt (.mul (.var 1) (.add (.neg (.num 1 1)) (.mul (.num 4 1) (.pow (.var 1) 2)))))))) (.hpow (.add (.add (.num 3 1) (.mul (.num 5 1) (.var 1))) (.mul (.num 2 1) (.pow (.var 1) 2))) 1),
  .div (.mul (.num 3 1) (.sqrt (.num 2 1))) (.mul (.add (.num 1 1) (.var 1)) (.sqrt (.add (.add (.num 3 1) (.mul (.num 8 1) (.var 1))) (.mul (.num 4 1) (.pow (.var 1) 2))))),
  .mul (.sqrt (.add (.num 1 1) (.var 1))) (.sub (.add (.add (.div (.mul (.var 1) (.add (.sub (.num 7 1) (.mul (.num 9 1) (.var 1))) (.mul (.num 2 1) (.pow (.var 1) 2)))) (.sqrt (.mul (.mul (.var 1) (.pow (.add (.num 1 1) (.var 1)) 3)) (.add (.add (.sub (.neg (.num 6 1)) (.var 1)) (.mul (.num 5 1) (.pow (.var 1) 2))) (.mul (.num 2 1) (.pow (.var 1) 3)))))) (.div (.mul (.mul (.num 6 1) (.add (.neg (.num 3 1)) (.mul (.num 2 1) (.var 1)))) (.sqrt (.div (.add (.neg (.num 1 1)) (.var 1)) (.mul (.var 1) (.add (.add (.add (.num 6 1) (.mul (.num 13 1) (.var 1))) (.mul (.num 9 1) (.pow (.var 1) 2))) (.mul (.num 2 1) (.pow (.var 1) 3))))))) (.add (.add (.num 1 1) (.mul (.num 3 1) (.var 1))) (.mul (.num 2 1) (.pow (.var 1) 2))))) (.div (.mul (.mul (.mul (.num 12 1) (.add (.neg (.num 2 1)) (.var 1))) (.var 1)) (.sqrt (.div (.add (.neg (.num 1 1)) (.var 1)) (.mul (.mul (.var 1) (.pow (.add (.num 1 1) (.mul (.num 2 1) (.var 1))) 2)) (.add (.add (.add (.num 6 1) (.mul (.num 13 1) (.var 1))) (.mul (.num 9 1) (.pow (.var 1) 2))) (.mul (.num 2 1) (.pow (.var 1) 3))))))) (.add (.num 1 1) (.var 1)))) (.mul (.mul (.num 2 1) (.add (.neg (.num 1 1)) (.var 1))) (.sqrt (.div (.var 1) (.add (.add (.add (.sub (.neg (.num 6 1)) (.mul (.num 7 1) (.var 1))) (.mul (.num 4 1) (.pow (.var 1) 2))) (.mul (.num 7 1) (.pow (.var 1) 3))) (.mul (.num 2 1) (.pow (.var 1) 4))))))),
  .div (.add (.add (.neg (.num 8 1)) (.mul (.num 3 1) (.var 1))) (.mul (.num 2 1) (.pow (.var 1) 2))) (.mul (.add (.num 1 1) (.var 1)) (.add (.num 1 1) (.mul (.num 2 1) (.var 1)))),
  .div (.mul (.sqrt (.num 2 1)) (.add (.add (.add (.mul (.num 30 1) (.sqrt (.div (.mul (.var 1) (.add (.add (.neg (.num 3 1)) (.mul (.num 4 1) (.var 1))) (.mul (.num 4 1) (.pow (.var 1) 2)))) (.add (.num 5 1) (.mul (.num 2 1) (.var 1)))))) (.mul (.num 47 1) (.sqrt (.div (.mul (.pow (.var 1) 3) (.add (.add (.neg (.num 3 1)) (.mul (.num 4 1) (.var 1))) (.mul (.num 4 1) (.pow (.var 1) 2)))) (.add (.num 5 1) (.mul (.num 2 1) (.var 1))))))) (.mul (.num 24 1) (.sqrt (.div (.mul (.pow (.var 1) 5) (.add (.add (.neg (.num 3 1)) (.mul (.num 4 1) (.var 1))) (.mul (.num 4 1) (.pow (.var 1) 2)))) (.add (.num 5 1) (.mul (.num 2 1) (.var 1))))))) (.mul (.num 4 1) (.sqrt (.div (.mul (.pow (.var 1) 7) (.add (.add (.neg (.num 3 1)) (.mul (.num 4 1) (.var 1))) (.mul (.num 4 1) (.pow (.var 1) 2)))) (.add (.num 5 1) (.mul (.num 2 1) (.var 1)))))))) (.sqrt (.mul (.mul (.mul (.var 1) (.pow (.add (.num 1 1) (.var 1)) 2)) (.add (.num 1 1) (.mul (.num 2 1) (.var 1)))) (.pow (.add (.add (.num 6 1) (.mul (.num 7 1) (.var 1))) (.mul (.num 2 1) (.pow (.var 1) 2))) 3))),
  .mul (.mul (.sqrt (.num 2 3)) (.sqrt (.add (.num 1 1) (.var 1)))) (.add (.add (.add (.sub (.mul (.mul (.num 3 1) (.add (.neg (.num 7 1)) (.mul (.num 6 1) (.var 1)))) (.sqrt (.div (.mul (.var 1) (.add (.num 1 1) (.mul (.num 2 1) (.var 1)))) (.mul (.mul (.pow (.add (.num 2 1) (.var 1)) 2) (.add (.num 5 1) (.mul (.num 2 1) (.var 1)))) (.pow (.add (.add (.num 3 1) (.mul (.num 5 1) (.var 1))) (.mul (.num 2 1) (.pow (.var 1) 2))) 3))))) (.mul (.num 2 1) (.sqrt (.div (.mul (.var 1) (.add (.num 1 1) (.mul (.num 2 1) (.var 1)))) (.add (.add (.add (.num 15 1) (.mul (.num 31 1) (.var 1))) (.mul (.num 20 1) (.pow (.var 1) 2))) (.mul (.num 4 1) (.pow (.var 1) 3))))))) (.mul (.add (.neg (.num 5 1)) (.mul (.num 2 1) (.var 1))) (.sqrt (.div (.mul (.var 1) (.add (.num 1 1) (.mul (.num 2 1) (.var 1)))) (.mul (.pow (.add (.num 2 1) (.var 1)) 2) (.add (.add (.add (.num 15 1) (.mul (.num 31 1) (.var 1))) (.mul (.num 20 1) (.pow (.var 1) 2))) (.mul (.num 4 1) (.pow (.var 1) 3)))))))) (.div (.mul (.mul (.mul (.num 6 1) (.add (.neg (.num 3 1)) (.mul (.num 2 1) (.var 1)))) (.add (.num 1 1) (.mul (.num 2 1) (.var 1)))) (.sqrt (.div (.var 1) (.add (.add (.add (.add (.num 15 1) (.mul (.num 61 1) (.var 1))) (.mul (.num 82 1) (.pow (.var 1) 2))) (.mul (.num 44 1) (.pow (.var 1) 3))) (.mul (.num 8 1) (.pow (.var 1) 4)))))) (.add (.add (.num 6 1) (.mul (.num 7 1) (.var 1))) (.mul (.num 2 1) (.pow (.var 1) 2))))) (.div (.mul (.mul (.num 24 1) (.add (.neg (.num 1 1)) (.var 1))) (.sqrt (.div (.var 1) (.mul (.pow (.add (.num 2 1) (.var 1)) 2) (.add (.add (.add (.add (.num 15 1) (.mul (.num 61 1) (.var 1))) (.mul (.num 82 1) (.pow (.var 1) 2))) (.mul (.num 44 1) (.pow (.var 1) 3))) (.mul (.num 8 1) (.pow (.var 1) 4))))))) (.add (.add (.num 3 1) (.mul (.num 5 1) (.var 1))) (.mul (.num 2 1) (.pow (.var 1) 2))))),
  .neg (.div (.mul (.sqrt (.div (.add (.num 1 1) (.var 1)) (.add (.add (.num 5 1) (.mul (.num 12 1) (.var 1))) (.mul (.num 4 1) (.pow (.var 1) 2))))) (.sub (.sub (.sub (.sub (.mul (.mul (.mul (.neg (.num 4 1)) (.add (.num 1 1) (.var 1))) (.add (.num 1 1) (.mul (.num 2 1) (.var 1)))) (.sqrt (.div (.mul (.var 1) (.add (.add (.neg (.num 3 1)) (.mul (.num 4 1) (.var 1))) (.mul (.num 4 1) (.pow (.var 1) 2)))) (.add (.add (.num 6 1) (.mul (.num 5 1) (.var 1))) (.pow (.var 1) 2))))) (.mul (.num 30 1) (.sqrt (.div (.mul (.var 1) (.add (.neg (.num 1 1)) (.mul (.num 2 1) (.var 1)))) (.add (.add (.add (.num 18 1) (.mul (.num 27 1) (.var 1))) (.mul (.num 13 1) (.pow (.var 1) 2))) (.mul (.num 2 1) (.pow (.var 1) 3))))))) (.mul (.mul (.num 24 1) (.add (.num 1 1) (.mul (.num 2 1) (.var 1)))) (.sqrt (.div (.mul (.var 1) (.add (.neg (.num 1 1)) (.mul (.num 2 1) (.var 1)))) (.add (.add (.add (.num 18 1) (.mul (.num 27 1) (.var 1))) (.mul (.num 13 1) (.pow (.var 1) 2))) (.mul (.num 2 1) (.pow (.var 1) 3))))))) (.mul (.mul (.mul (.num 18 1) (.add (.num 1 1) (.var 1))) (.add (.num 1 1) (.mul (.num 2 1) (.var 1)))) (.sqrt (.div (.mul (.var 1) (.add (.neg (.num 1 1)) (.mul (.num 2 1) (.var 1)))) (.add (.add (.add (.num 18 1) (.mul (.num 27 1) (.var 1))) (.mul (.num 13 1) (.pow (.var 1) 2))) (.mul (.num 2 1) (.pow (.var 1) 3))))))) (.mul (.mul (.add (.num 1 1) (.var 1)) (.add (.num 1 1) (.mul (.num 2 1) (.var 1)))) (.sqrt (.div (.mul (.var 1) (.add (.add (.add (.neg (.num 6 1)) (.mul (.num 5 1) (.var 1))) (.mul (.num 12 1) (.pow (.var 1) 2))) (.mul (.num 4 1) (.pow (.var 1) 3)))) (.add (.num 3 1) (.var 1))))))) (.add (.add (.add (.num 6 1) (.mul (.num 13 1) (.var 1))) (.mul (.num 9 1) (.pow (.var 1) 2))) (.mul (.num 2 1) (.pow (.var 1) 3)))),
  .mul (.neg (.num 2 1)) (.sqrt (.div (.mul (.add (.neg (.num 3 1)) (.var 1)) (.add (.num 1 1) (.var 1))) (.add (.sub (.num 3 1) (.mul (.num 8 1) (.var 1))) (.mul (.num 4 1) (.pow (.var 1) 2))))),
  .mul (.mul (.neg (.num 2 1)) (.sqrt (.num 5 1))) (.sqrt (.div (.mul (.add (.num 1 1) (.var 1)) (.add (.neg (.num 5 1)) (.mul (.num 2 1) (.var 1)))) (.add (.sub (.add (.add (.neg (.num 3 1)) (.mul (.num 5 1) (.var 1))) (.mul (.num 10 1) (.pow (.var 1) 2))) (.mul (.num 20 1) (.pow (.var 1) 3))) (.mul (.num 8 1) (.pow (.var 1) 4))))),
  .div (.mul (.mul (.num 2 1) (.sqrt (.num 30 1))) (.sqrt (.div (.add (.neg (.num 2 1)) (.var 1)) (.add (.sub (.add (.num 3 1) (.var 1)) (.mul (.num 8 1) (.pow (.var 1) 2))) (.mul (.num 4 1) (.pow (.var 1) 3)))))) (.sub (.num 1 1) (.mul (.num 2 1) (.var 1))),
  .div (.sqrt (.num 15 1)) (.sqrt (.add (.sub (.num 3 1) (.mul (.num 8 1) (.var 1))) (.mul (.num 4 1) (.pow (.var 1) 2)))),
  .div (.sub (.add (.num 23 1) (.mul (.num 4 1) (.var 1))) (.mul (.num 4 1) (.pow (.var 1) 2))) (.mul (.add (.neg (.num 1 1)) (.mul (.num 2 1) (.var 1))) (.sqrt (.add (.sub (.neg (.num 3 1)) (.mul (.num 4 1) (.var 1))) (.mul (.num 4 1) (.pow (.var 1) 2))))),
  .div (.mul (.sqrt (.num 2 1)) (.sub (.add (.num 27 1) (.mul (.num 4 1) (.var 1))) (.mul (.num 8 1) (.pow (.var 1) 2)))) (.mul (.add (.neg (.num 1 1)) (.mul (.num 2 1) (.var 1))) (.sqrt (.mul (.var 1) (.add (.sub (.neg (.num 3 1)) (.mul (.num 7 1) (.var 1))) (.mul (.num 4 1) (.pow (.var 1) 3)))))),
  .div (.mul (.neg (.num 9 1)) (.sub (.mul (.num 4 1) (.sqrt (.div (.mul (.pow (.var 1) 3) (.add (.num 1 1) (.var 1))) (.add (.neg (.num 1 1)) (.mul (.num 4 1) (.pow (.var 1) 2)))))) (.mul (.num 9 1) (.sqrt (.neg (.div (.add (.num 1 1) (.var 1)) (.sub (.var 1) (.mul (.num 4 1) (.pow (.var 1) 3))))))))) (.mul (.add (.num 1 1) (.var 1)) (.sqrt (.add (.sub (.num 27 2) (.mul (.num 60 1) (.pow (.var 1) 2))) (.mul (.num 24 1) (.pow (.var 1) 4))))),
  .mul (.mul (.sqrt (.num 2 3)) (.sqrt (.add (.num 1 1) (.var 1)))) (.add (.sub (.div (.mul (.mul (.neg (.num 10 1)) (.add (.neg (.num 5 1)) (.mul (.num 2 1) (.var 1)))) (.sqrt (.div (.sub (.num 2 1) (.var 1)) (.sub (.sub (.add (.add (.num 3 1) (.mul (.num 8 1) (.var 1))) (.pow (.var 1) 2)) (.mul (.num 8 1) (.pow (.var 1) 3))) (.mul (.num 4 1) (.pow (.var 1) 4)))))) (.add (.neg (.num 1 1)) (.mul (.num 2 1) (.var 1)))) (.mul (.mul (.mul (.num 4 1) (.add (.neg (.num 1 1)) (.var 1))) (.add (.neg (.num 9 1)) (.mul (.num 2 1) (.var 1)))) (.sqrt (.div (.add (.neg (.num 2 1)) (.var 1)) (.mul (.pow (.sub (.num 1 1) (.mul (.num 2 1) (.var 1))) 2) (.add (.add (.sub (.sub (.neg (.num 3 1)) (.mul (.num 8 1) (.var 1))) (.pow (.var 1) 2)) (.mul (.num 8 1) (.pow (.var 1) 3))) (.mul (.num 4 1) (.pow (.var 1) 4)))))))) (.div (.mul (.mul (.num 4 1) (.add (.neg (.num 2 1)) (.var 1))) (.add (.neg (.num 1 1)) (.var 1))) (.sqrt (.add (.sub (.sub (.add (.num 6 1) (.mul (.num 13 1) (.var 1))) (.mul (.num 6 1) (.pow (.var 1) 2))) (.mul (.num 17 1) (.pow (.var 1) 3))) (.mul (.num 4 1) (.pow (.var 1) 5)))))),
  .mul (.mul (.neg (.num 2 1)) (.sqrt (.add (.num 1 1) (.var 1)))) (.add (.add (.div (.mul (.mul (.mul (.num 4 1) (.add (.neg (.num 1 1)) (.var 1))) (.add (.neg (.num 11 1)) (.mul (.num 4 1) (.var 1)))) (.sqrt (.div (.add (.neg (.num 3 1)) (.mul (.num 2 1) (.var 1))) (.mul (.pow (.sub (.num 1 1) (.mul (.num 4 1) (.pow (.var 1) 2))) 2) (.add (.add (.neg (.num 3 1)) (.var 1)) (.mul (.num 2 1) (.pow (.var 1) 2))))))) (.add (.num 1 1) (.var 1))) (.div (.mul (.mul (.num 30 1) (.add (.neg (.num 2 1)) (.var 1))) (.sqrt (.div (.add (.neg (.num 3 1)) (.mul (.num 2 1) (.var 1))) (.mul (.pow (.add (.num 1 1) (.var 1)) 2) (.add (.add (.neg (.num 3 1)) (.var 1)) (.mul (.num 2 1) (.pow (.var 1) 2))))))) (.add (.neg (.num 1 1)) (.mul (.num 4 1) (.pow (.var 1) 2))))) (.div (.mul (.add (.neg (.num 1 1)) (.var 1)) (.add (.sub (.num 15 1) (.mul (.num 13 1) (.var 1))) (.mul (.num 2 1) (.pow (.var 1) 2)))) (.mul (.mul (.add (.num 1 1) (.var 1)) (.add (.num 1 1) (.mul (.num 2 1) (.var 1)))) (.sqrt (.add (.sub (.sub (.num 9 1) (.mul (.num 9 1) (.var 1))) (.mul (.num 4 1) (.pow (.var 1) 2))) (.mul (.num 4 1) (.pow (.var 1) 3))))))),
  .div (.mul (.neg (.num 6 1)) (.add (.add (.neg (.num 7 1)) (.var 1)) (.mul (.num 2 1) (.pow (.var 1) 2)))) (.mul (.add (.num 1 1) (.var 1)) (.add (.neg (.num 1 1)) (.mul (.num 4 1) (.pow (.var 1) 2)))),
  .div (.mul (.mul (.neg (.num 6 1)) (.sqrt (.num 6 1))) (.add (.add (.neg (.num 2 1)) (.var 1)) (.pow (.var 1) 2))) (.mul (.mul (.add (.num 1 1) (.var 1)) (.add (.num 1 1) (.mul (.num 2 1) (.var 1)))) (.sqrt (.add (.add (.sub (.sub (.num 6 1) (.mul (.num 11 1) (.var 1))) (.mul (.num 7 1) (.pow (.var 1) 2))) (.mul (.num 8 1) (.pow (.var 1) 3))) (.mul (.num 4 1) (.pow (.var 1) 4))))),
  .mul (.mul (.sqrt (.num 3 1)) (.sqrt (.add (.num 1 1) (.var 1)))) (.add (.sub (.sub (.div (.mul (.mul (.neg (.num 2 1)) (.add (.neg (.num 11 1)) (.mul (.num 4 1) (.var 1)))) (.sqrt (.div (.add (.sub (.num 3 1) (.mul (.num 5 1) (.var 1))) (.mul (.num 2 1) (.pow (.var 1) 2))) (.mul (.mul (.var 1) (.pow (.add (.num 1 1) (.mul (.num 2 1) (.var 1))) 2)) (.add (.add (.num 6 1) (.mul (.num 7 1) (.var 1))) (.mul (.num 2 1) (.pow (.var 1) 2))))))) (.add (.num 1 1) (.var 1))) (.mul (.num 20 1) (.sqrt (.div (.mul (.pow (.add (.neg (.num 2 1)) (.var 1)) 2) (.add (.sub (.num 3 1) (.mul (.num 5 1) (.var 1))) (.mul (.num 2 1) (.pow (.var 1) 2)))) (.mul (.mul (.var 1) (.add (.add (.num 6 1) (.mul (.num 7 1) (.var 1))) (.mul (.num 2 1) (.pow (.var 1) 2)))) (.pow (.sub (.sub (.add (.num 1 1) (.var 1)) (.mul (.num 4 1) (.pow (.var 1) 2))) (.mul (.num 4 1) (.pow (.var 1) 3))) 2)))))) (.div (.mul (.mul (.mul (.num 2 1) (.var 1)) (.add (.sub (.num 15 1) (.mul (.num 13 1) (.var 1))) (.mul (.num 2 1) (.pow (.var 1) 2)))) (.sqrt (.div (.add (.neg (.num 1 1)) (.var 1)) (.mul (.mul (.var 1) (.pow (.add (.num 1 1) (.mul (.num 2 1) (.var 1))) 2)) (.add (.add (.sub (.neg (.num 18 1)) (.mul (.num 9 1) (.var 1))) (.mul (.num 8 1) (.pow (.var 1) 2))) (.mul (.num 4 1) (.pow (.var 1) 3))))))) (.add (.num 1 1) (.var 1)))) (.div (.mul (.var 1) (.add (.sub (.num 3 1) (.mul (.num 5 1) (.var 1))) (.mul (.num 2 1) (.pow (.var 1) 2)))) (.mul (.add (.num 1 1) (.var 1)) (.sqrt (.mul (.var 1) (.add (.add (.sub (.sub (.num 18 1) (.mul (.num 9 1) (.var 1))) (.mul (.num 17 1) (.pow (.var 1) 2))) (.mul (.num 4 1) (.pow (.var 1) 3))) (.mul (.num 4 1) (.pow (.var 1) 4)))))))),
  .neg (.mul (.sqrt (.add (.num 1 1) (.var 1))) (.add (.add (.add (.mul (.num 120 1) (.sqrt (.div (.mul (.pow (.sub (.num 3 1) (.mul (.num 2 1) (.var 1))) 2) (.add (.neg (.num 1 1)) (.var 1))) (.mul (.mul (.mul (.var 1) (.pow (.add (.num 3 1) (.mul (.num 2 1) (.var 1))) 3)) (.add (.add (.neg (.num 2 1)) (.mul (.num 3 1) (.var 1))) (.mul (.num 2 1) (.pow (.var 1) 2)))) (.pow (.add (.add (.num 1 1) (.mul (.num 3 1) (.var 1))) (.mul (.num 2 1) (.pow (.var 1) 2))) 2))))) (.div (.mul (.mul (.num 18 1) (.add (.neg (.num 11 1)) (.mul (.num 6 1) (.var 1)))) (.sqrt (.div (.add (.sub (.num 1 1) (.mul (.num 3 1) (.var 1))) (.mul (.num 2 1) (.pow (.var 1) 2))) (.mul (.mul (.var 1) (.pow (.add (.num 1 1) (.mul (.num 2 1) (.var 1))) 2)) (.add (.add (.num 6 1) (.mul (.num 7 1) (.var 1))) (.mul (.num 2 1) (.pow (.var 1) 2))))))) (.add (.add (.num 3 1) (.mul (.num 5 1) (.var 1))) (.mul (.num 2 1) (.pow (.var 1) 2))))) (.div (.mul (.mul (.mul (.num 18 1) (.var 1)) (.add (.sub (.num 5 1) (.mul (.num 7 1) (.var 1))) (.mul (.num 2 1) (.pow (.var 1) 2)))) (.sqrt (.div (.sub (.num 1 1) (.mul (.num 2 1) (.var 1))) (.sub (.sub (.add (.mul (.num 6 1) (.var 1)) (.pow (.var 1) 2)) (.mul (.num 5 1) (.pow (.var 1) 3))) (.mul (.num 2 1) (.pow (.var 1) 4)))))) (.mul (.add (.num 1 1) (.mul (.num 2 1) (.var 1))) (.add (.add (.num 3 1) (.mul (.num 5 1) (.var 1))) (.mul (.num 2 1) (.pow (.var 1) 2)))))) (.div (.mul (.mul (.var 1) (.add (.neg (.num 1 1)) (.mul (.num 2 1) (.var 1)))) (.add (.sub (.num 9 1) (.mul (.num 11 1) (.var 1))) (.mul (.num 2 1) (.pow (.var 1) 2)))) (.mul (.add (.add (.num 3 1) (.mul (.num 5 1) (.var 1))) (.mul (.num 2 1) (.pow (.var 1) 2))) (.sqrt (.mul (.var 1) (.add (.add (.sub (.sub (.num 6 1) (.mul (.num 11 1) (.var 1))) (.mul (.num 7 1) (.pow (.var 1) 2))) (.mul (.num 8 1) (.pow (.var 1) 3))) (.mul (.num 4 1) (.pow (.var 1) 4))))))))),
  .neg (.mul (.sqrt (.add (.num 2 1) (.mul (.num 2 1) (.var 1)))) (.add (.add (.add (.div (.mul (.mul (.var 1) (.sqrt (.add (.neg (.num 1 1)) (.mul (.num 2 1) (.var 1))))) (.add (.neg (.num 7 1)) (.mul (.num 4 1) (.var 1)))) (.mul (.add (.num 1 1) (.var 1)) (.hpow (.add (.add (.num 6 1) (.mul (.num 7 1) (.var 1))) (.mul (.num 2 1) (.pow (.var 1) 2))) 1))) (.div (.mul (.num 18 1) (.add (.neg (.num 9 1)) (.mul (.num 8 1) (.var 1)))) (.mul (.sqrt (.div (.mul (.pow (.add (.num 1 1) (.mul (.num 2 1) (.var 1))) 2) (.add (.add (.num 6 1) (.mul (.num 7 1) (.var 1))) (.mul (.num 2 1) (.pow (.var 1) 2)))) (.add (.neg (.num 1 1)) (.mul (.num 2 1) (.var 1))))) (.add (.add (.add (.num 6 1) (.mul (.num 13 1) (.var 1))) (.mul (.num 9 1) (.pow (.var 1) 2))) (.mul (.num 2 1) (.pow (.var 1) 3)))))) (.div (.mul (.mul (.mul (.num 18 1) (.var 1)) (.add (.neg (.num 1 1)) (.mul (.num 2 1) (.var 1)))) (.add (.neg (.num 4 1)) (.mul (.num 3 1) (.var 1)))) (.mul (.mul (.add (.num 1 1) (.mul (.num 2 1) (.var 1))) (.add (.add (.add (.num 6 1) (.mul (.num 13 1) (.var 1))) (.mul (.num 9 1) (.pow (.var 1) 2))) (.mul (.num 2 1) (.pow (.var 1) 3)))) (.sqrt (.add (.add (.add (.neg (.num 6 1)) (.mul (.num 5 1) (.var 1))) (.mul (.num 12 1) (.pow (.var 1) 2))) (.mul (.num 4 1) (.pow (.var 1) 3))))))) (.div (.mul (.num 300 1) (.add (.neg (.num 1 1)) (.var 1))) (.mul (.mul (.add (.num 1 1) (.var 1)) (.sqrt (.add (.add (.add (.neg (.num 6 1)) (.mul (.num 5 1) (.var 1))) (.mul (.num 12 1) (.pow (.var 1) 2))) (.mul (.num 4 1) (.pow (.var 1) 3))))) (.add (.add (.add (.num 6 1) (.mul (.num 19 1) (.var 1))) (.mul (.num 16 1) (.pow (.var 1) 2))) (.mul (.num 4 1) (.pow (.var 1) 3))))))),
  .neg (.div (.sqrt (.num 30 1)) (.sqrt (.mul (.add (.num 1 1) (.var 1)) (.add (.add (.add (.num 6 1) (.mul (.num 19 1) (.var 1))) (.mul (.num 16 1) (.pow (.var 1) 2))) (.mul (.num 4 1) (.pow (.var 1) 3)))))),
  .mul (.mul (.mul (.neg (.num 2 1)) (.sqrt (.num 2 3))) (.sqrt (.add (.num 1 1) (.var 1)))) (.sub (.add (.add (.add (.mul (.mul (.mul (.num 2 1) (.var 1)) (.add (.sub (.num 9 1) (.mul (.num 11 1) (.var 1))) (.mul (.num 2 1) (.pow (.var 1) 2)))) (.sqrt (.div (.num 1 1) (.mul (.mul (.pow (.add (.num 3 1) (.mul (.num 2 1) (.var 1))) 3) (.add (.neg (.num 1 1)) (.pow (.var 1) 2))) (.add (.add (.num 10 1) (.mul (.num 9 1) (.var 1))) (.mul (.num 2 1) (.pow (.var 1) 2))))))) (.div (.mul (.mul (.num 9 1) (.var 1)) (.add (.sub (.num 5 1) (.mul (.num 7 1) (.var 1))) (.mul (.num 2 1) (.pow (.var 1) 2)))) (.mul (.hpow (.add (.add (.num 3 1) (.mul (.num 5 1) (.var 1))) (.mul (.num 2 1) (.pow (.var 1) 2))) 1) (.sqrt (.add (.add (.add (.neg (.num 10 1)) (.var 1)) (.mul (.num 7 1) (.pow (.var 1) 2))) (.mul (.num 2 1) (.pow (.var 1) 3))))))) (.div (.mul (.mul (.num 30 1) (.add (.neg (.num 3 1)) (.mul (.num 2 1) (.var 1)))) (.sqrt (.div (.add (.neg (.num 1 1)) (.var 1)) (.add (.add (.add (.add (.num 30 1) (.mul (.num 77 1) (.var 1))) (.mul (.num 71 1) (.pow (.var 1) 2))) (.mul (.num 28 1) (.pow (.var 1) 3))) (.mul (.num 4 1) (.pow (.var 1) 4)))))) (.add (.add (.add (.num 3 1) (.mul (.num 11 1) (.var 1))) (.mul (.num 12 1) (.pow (.var 1) 2))) (.mul (.num 4 1) (.pow (.var 1) 3))))) (.div (.mul (.mul (.mul (.num 12 1) (.var 1)) (.add (.neg (.num 11 1)) (.mul (.num 6 1) (.var 1)))) (.sqrt (.div (.add (.neg (.num 1 1)) (.var 1)) (.mul (.pow (.add (.num 1 1) (.mul (.num 2 1) (.var 1))) 2) (.add (.add (.add (.add (.num 30 1) (.mul (.num 77 1) (.var 1))) (.mul (.num 71 1) (.pow (.var 1) 2))) (.mul (.num 28 1) (.pow (.var 1) 3))) (.mul (.num 4 1) (.pow (.var 1) 4))))))) (.add (.add (.num 3 1) (.mul (.num 5 1) (.var 1))) (.mul (.num 2 1) (.pow (.var 1) 2))))) (.div (.mul (.mul (.num 2 1) (.add (.neg (.num 1 1)) (.var 1))) (.var 1)) (.sqrt (.add (.add (.add (.add (.sub (.neg (.num 30 1)) (.mul (.num 47 1) (.var 1))) (.mul (.num 6 1) (.pow (.var 1) 2))) (.mul (.num 43 1) (.pow (.var 1) 3))) (.mul (.num 24 1) (.pow (.var 1) 4))) (.mul (.num 4 1) (.pow (.var 1) 5)))))),
  .div (.mul (.mul (.neg (.num 2 1)) (.add (.add (.neg (.num 5 1)) (.mul (.num 2 1) (.var 1))) (.pow (.var 1) 2))) (.sqrt (.div (.add (.add (.num 3 1) (.mul (.num 5 1) (.var 1))) (.mul (.num 2 1) (.pow (.var 1) 2))) (.add (.num 1 1) (.mul (.num 2 1) (.var 1)))))) (.mul (.hpow (.add (.num 1 1) (.var 1)) 1) (.add (.num 3 1) (.mul (.num 2 1) (.var 1)))),
  .div (.mul (.mul (.neg (.num 2 1)) (.sqrt (.num 5 1))) (.add (.add (.add (.add (.mul (.num 90 1) (.sqrt (.div (.mul (.var 1) (.add (.add (.add (.neg (.num 2 1)) (.var 1)) (.mul (.num 5 1) (.pow (.var 1) 2))) (.mul (.num 2 1) (.pow (.var 1) 3)))) (.add (.num 3 1) (.var 1))))) (.mul (.num 171 1) (.sqrt (.div (.mul (.pow (.var 1) 3) (.add (.add (.add (.neg (.num 2 1)) (.var 1)) (.mul (.num 5 1) (.pow (.var 1) 2))) (.mul (.num 2 1) (.pow (.var 1) 3)))) (.add (.num 3 1) (.var 1)))))) (.mul (.num 119 1) (.sqrt (.div (.mul (.pow (.var 1) 5) (.add (.add (.add (.neg (.num 2 1)) (.var 1)) (.mul (.num 5 1) (.pow (.var 1) 2))) (.mul (.num 2 1) (.pow (.var 1) 3)))) (.add (.num 3 1) (.var 1)))))) (.mul (.num 36 1) (.sqrt (.div (.mul (.pow (.var 1) 7) (.add (.add (.add (.neg (.num 2 1)) (.var 1)) (.mul (.num 5 1) (.pow (.var 1) 2))) (.mul (.num 2 1) (.pow (.var 1) 3)))) (.add (.num 3 1) (.var 1)))))) (.mul (.num 4 1) (.sqrt (.div (.mul (.pow (.var 1) 9) (.add (.add (.add (.neg (.num 2 1)) (.var 1)) (.mul (.num 5 1) (.pow (.var 1) 2))) (.mul (.num 2 1) (.pow (.var 1) 3)))) (.add (.num 3 1) (.var 1))))))) (.sqrt (.mul (.mul (.mul (.var 1) (.pow (.add (.num 1 1) (.var 1)) 2)) (.add (.num 1 1) (.mul (.num 2 1) (.var 1)))) (.pow (.add (.add (.add (.num 30 1) (.mul (.num 47 1) (.var 1))) (.mul (.num 24 1) (.pow (.var 1) 2))) (.mul (.num 4 1) (.pow (.var 1) 3))) 3))),
  .neg (.mul (.mul (.sqrt (.num 5 3)) (.sqrt (.add (.num 1 1) (.var 1)))) (.add (.add (.sub (.add (.add (.mul (.mul (.num 12 1) (.add (.neg (.num 4 1)) (.mul (.num 3 1) (.var 1)))) (.sqrt (.div (.mul (.var 1) (.add (.num 1 1) (.mul (.num 2 1) (.var 1)))) (.mul (.mul (.add (.num 3 1) (.var 1)) (.pow (.add (.num 5 1) (.mul (.num 2 1) (.var 1))) 2)) (.pow (.add (.add (.num 6 1) (.mul (.num 7 1) (.var 1))) (.mul (.num 2 1) (.pow (.var 1) 2))) 3))))) (.mul (.mul (.num 6 1) (.add (.neg (.num 9 1)) (.mul (.num 8 1) (.var 1)))) (.sqrt (.div (.mul (.var 1) (.add (.num 1 1) (.mul (.num 2 1) (.var 1)))) (.mul (.mul (.add (.num 3 1) (.var 1)) (.pow (.add (.add (.num 5 1) (.mul (.num 7 1) (.var 1))) (.mul (.num 2 1) (.pow (.var 1) 2))) 2)) (.pow (.add (.add (.num 6 1) (.mul (.num 7 1) (.var 1))) (.mul (.num 2 1) (.pow (.var 1) 2))) 3)))))) (.mul (.mul (.num 2 1) (.add (.neg (.num 7 1)) (.mul (.num 4 1) (.var 1)))) (.sqrt (.div (.mul (.var 1) (.add (.num 1 1) (.mul (.num 2 1) (.var 1)))) (.mul (.mul (.pow (.add (.num 2 1) (.var 1)) 3) (.pow (.add (.num 5 1) (.mul (.num 2 1) (.var 1))) 2)) (.add (.add (.num 9 1) (.mul (.num 9 1) (.var 1))) (.mul (.num 2 1) (.pow (.var 1) 2)))))))) (.sqrt (.div (.mul (.var 1) (.add (.num 1 1) (.mul (.num 2 1) (.var 1)))) (.add (.add (.add (.num 18 1) (.mul (.num 27 1) (.var 1))) (.mul (.num 13 1) (.pow (.var 1) 2))) (.mul (.num 2 1) (.pow (.var 1) 3)))))) (.mul (.mul (.num 2 1) (.add (.neg (.num 3 1)) (.var 1))) (.sqrt (.div (.mul (.var 1) (.add (.num 1 1) (.mul (.num 2 1) (.var 1)))) (.mul (.pow (.add (.num 5 1) (.mul (.num 2 1) (.var 1))) 2) (.add (.add (.add (.num 18 1) (.mul (.num 27 1) (.var 1))) (.mul (.num 13 1) (.pow (.var 1) 2))) (.mul (.num 2 1) (.pow (.var 1) 3)))))))) (.div (.mul (.mul (.num 60 1) (.add (.neg (.num 1 1)) (.var 1))) (.sqrt (.div (.var 1) (.mul (.pow (.add (.add (.num 5 1) (.mul (.num 7 1) (.var 1))) (.mul (.num 2 1) (.pow (.var 1) 2))) 2) (.add (.add (.add (.add (.num 18 1) (.mul (.num 63 1) (.var 1))) (.mul (.num 67 1) (.pow (.var 1) 2))) (.mul (.num 28 1) (.pow (.var 1) 3))) (.mul (.num 4 1) (.pow (.var 1) 4))))))) (.add (.add (.num 6 1) (.mul (.num 7 1) (.var 1))) (.mul (.num 2 1) (.pow (.var 1) 2)))))),
  .div (.mul (.sqrt (.div (.add (.num 1 1) (.var 1)) (.add (.add (.num 3 1) (.mul (.num 7 1) (.var 1))) (.mul (.num 2 1) (.pow (.var 1) 2))))) (.sub (.sub (.sub (.sub (.sub (.mul (.mul (.mul (.mul (.neg (.num 10 1)) (.add (.num 1 1) (.var 1))) (.add (.num 1 1) (.mul (.num 2 1) (.var 1)))) (.add (.num 3 1) (.mul (.num 2 1) (.var 1)))) (.sqrt (.div (.mul (.var 1) (.add (.add (.neg (.num 2 1)) (.mul (.num 3 1) (.var 1))) (.mul (.num 2 1) (.pow (.var 1) 2)))) (.add (.add (.num 35 1) (.mul (.num 24 1) (.var 1))) (.mul (.num 4 1) (.pow (.var 1) 2)))))) (.mul (.add (.add (.add (.num 3 1) (.mul (.num 11 1) (.var 1))) (.mul (.num 12 1) (.pow (.var 1) 2))) (.mul (.num 4 1) (.pow (.var 1) 3))) (.sqrt (.div (.mul (.var 1) (.add (.add (.add (.neg (.num 10 1)) (.mul (.num 11 1) (.var 1))) (.mul (.num 16 1) (.pow (.var 1) 2))) (.mul (.num 4 1) (.pow (.var 1) 3)))) (.add (.num 7 1) (.mul (.num 2 1) (.var 1))))))) (.mul (.num 180 1) (.sqrt (.div (.mul (.var 1) (.add (.neg (.num 1 1)) (.mul (.num 2 1) (.var 1)))) (.add (.add (.add (.num 70 1) (.mul (.num 83 1) (.var 1))) (.mul (.num 32 1) (.pow (.var 1) 2))) (.mul (.num 4 1) (.pow (.var 1) 3))))))) (.mul (.mul (.num 150 1) (.add (.num 1 1) (.mul (.num 2 1) (.var 1)))) (.sqrt (.div (.mul (.var 1) (.add (.neg (.num 1 1)) (.mul (.num 2 1) (.var 1)))) (.add (.add (.add (.num 70 1) (.mul (.num 83 1) (.var 1))) (.mul (.num 32 1) (.pow (.var 1) 2))) (.mul (.num 4 1) (.pow (.var 1) 3))))))) (.mul (.mul (.num 120 1) (.add (.add (.num 1 1) (.mul (.num 3 1) (.var 1))) (.mul (.num 2 1) (.pow (.var 1) 2)))) (.sqrt (.div (.mul (.var 1) (.add (.neg (.num 1 1)) (.mul (.num 2 1) (.var 1)))) (.add (.add (.add (.num 70 1) (.mul (.num 83 1) (.var 1))) (.mul (.num 32 1) (.pow (.var 1) 2))) (.mul (.num 4 1) (.pow (.var 1) 3))))))) (.mul (.mul (.mul (.num 30 1) (.add (.num 1 1) (.mul (.num 2 1) (.var 1)))) (.add (.add (.num 3 1) (.mul (.num 5 1) (.var 1))) (.mul (.num 2 1) (.pow (.var 1) 2)))) (.sqrt (.div (.mul (.var 1) (.add (.neg (.num 1 1)) (.mul (.num 2 1) (.var 1)))) (.add (.add (.add (.num 70 1) (.mul (.num 83 1) (.var 1))) (.mul (.num 32 1) (.pow (.var 1) 2))) (.mul (.num 4 1) (.pow (.var 1) 3)))))))) (.add (.add (.add (.add (.num 30 1) (.mul (.num 77 1) (.var 1))) (.mul (.num 71 1) (.pow (.var 1) 2))) (.mul (.num 28 1) (.pow (.var 1) 3))) (.mul (.num 4 1) (.pow (.var 1) 4))),
  .neg (.div (.add (.sqrt (.div (.add (.neg (.num 1 1)) (.var 1)) (.add (.num 1 1) (.mul (.num 2 1) (.var 1))))) (.sqrt (.add (.sub (.neg (.num 1 1)) (.var 1)) (.mul (.num 2 1) (.pow (.var 1) 2))))) (.sqrt (.add (.add (.neg (.num 1 1)) (.var 1)) (.mul (.num 2 1) (.pow (.var 1) 2))))),
  .div (.num 3 1) (.sub (.num 1 1) (.mul (.num 2 1) (.var 1))),
  .div (.num 3 1) (.sub (.var 1) (.mul (.num 2 1) (.pow (.var 1) 2))),
  .div (.num 3 1) (.sub (.var 1) (.mul (.num 4 1) (.pow (.var 1) 3))),
  .div (.mul (.neg (.num 2 1)) (.sqrt (.mul (.add (.neg (.num 2 1)) (.var 1)) (.add (.add (.neg (.num 1 1)) (.var 1)) (.mul (.num 2 1) (.pow (.var 1) 2)))))) (.hpow (.add (.neg (.num 1 1)) (.mul (.num 2 1) (.var 1))) 1),
  .div (.mul (.sqrt (.num 3 1)) (.sub (.sub (.add (.mul (.neg (.num 3 1)) (.sqrt (.div (.mul (.var 1) (.add (.add (.neg (.num 1 1)) (.var 1)) (.mul (.num 2 1) (.pow (.var 1) 2)))) (.add (.num 1 1) (.mul (.num 2 1) (.var 1)))))) (.mul (.mul (.num 8 1) (.var 1)) (.sqrt (.div (.mul (.var 1) (.add (.add (.neg (.num 1 1)) (.var 1)) (.mul (.num 2 1) (.pow (.var 1) 2)))) (.add (.num 1 1) (.mul (.num 2 1) (.var 1))))))) (.mul (.num 4 1) (.sqrt (.div (.mul (.pow (.var 1) 5) (.add (.add (.neg (.num 1 1)) (.var 1)) (.mul (.num 2 1) (.pow (.var 1) 2)))) (.add (.num 1 1) (.mul (.num 2 1) (.var 1))))))) (.mul (.mul (.num 3 1) (.add (.neg (.num 1 1)) (.mul (.num 2 1) (.var 1)))) (.sqrt (.div (.mul (.mul (.pow (.sub (.num 3 1) (.mul (.num 2 1) (.var 1))) 2) (.var 1)) (.add (.num 1 1) (.var 1))) (.add (.neg (.num 1 1)) (.mul (.num 4 1) (.pow (.var 1) 2)))))))) (.mul (.mul (.mul (.var 1) (.add (.num 1 1) (.var 1))) (.sqrt (.add (.neg (.num 3 1)) (.mul (.num 2 1) (.var 1))))) (.hpow (.add (.neg (.num 1 1)) (.mul (.num 2 1) (.var 1))) 1)),
  .neg (.div (.add (.sub (.add (.sub (.mul (.mul (.num 3 1) (.var 1)) (.sqrt (.div (.mul (.mul (.mul (.pow (.sub (.num 3 1) (.mul (.num 2 1) (.var 1))) 2) (.add (.neg (.num 1 1)) (.var 1))) (.add (.neg (.num 1 1)) (.mul (.num 2 1) (.var 1)))) (.add (.add (.num 3 1) (.mul (.num 5 1) (.var 1))) (.mul (.num 2 1) (.pow (.var 1) 2)))) (.mul (.var 1) (.add (.num 1 1) (.mul (.num 2 1) (.var 1))))))) (.mul (.num 3 1) (.sqrt (.mul (.mul (.mul (.mul (.add (.neg (.num 1 1)) (.var 1)) (.pow (.var 1) 3)) (.add (.neg (.num 1 1)) (.mul (.num 2 1) (.var 1)))) (.add (.num 1 1) (.mul (.num 2 1) (.var 1)))) (.add (.add (.num 3 1) (.mul (.num 5 1) (.var 1))) (.mul (.num 2 1) (.pow (.var 1) 2))))))) (.mul (.mul (.num 2 1) (.var 1)) (.sqrt (.mul (.mul (.mul (.mul (.add (.neg (.num 1 1)) (.var 1)) (.pow (.var 1) 3)) (.add (.neg (.num 1 1)) (.mul (.num 2 1) (.var 1)))) (.add (.num 1 1) (.mul (.num 2 1) (.var 1)))) (.add (.add (.num 3 1) (.mul (.num 5 1) (.var 1))) (.mul (.num 2 1) (.pow (.var 1) 2))))))) (.mul (.mul (.num 12 1) (.var 1)) (.sqrt (.div (.mul (.mul (.add (.neg (.num 1 1)) (.var 1)) (.var 1)) (.add (.add (.add (.neg (.num 3 1)) (.var 1)) (.mul (.num 8 1) (.pow (.var 1) 2))) (.mul (.num 4 1) (.pow (.var 1) 3)))) (.add (.num 1 1) (.mul (.num 2 1) (.var 1))))))) (.mul (.mul (.num 8 1) (.pow (.var 1) 2)) (.sqrt (.div (.mul (.mul (.add (.neg (.num 1 1)) (.var 1)) (.var 1)) (.add (.add (.add (.neg (.num 3 1)) (.var 1)) (.mul (.num 8 1) (.pow (.var 1) 2))) (.mul (.num 4 1) (.pow (.var 1) 3)))) (.add (.num 1 1) (.mul (.num 2 1) (.var 1))))))) (.mul (.mul (.hpow (.var 1) 1) (.sqrt (.add (.neg (.num 3 1)) (.mul (.num 2 1) (.var 1))))) (.add (.add (.add (.neg (.num 3 1)) (.var 1)) (.mul (.num 8 1) (.pow (.var 1) 2))) (.mul (.num 4 1) (.pow (.var 1) 3))))),
  .div (.sub (.sub (.mul (.mul (.neg (.num 12 1)) (.var 1)) (.sqrt (.div (.mul (.mul (.add (.neg (.num 1 1)) (.var 1)) (.add (.num 1 1) (.var 1))) (.add (.neg (.num 1 1)) (.mul (.num 2 1) (.var 1)))) (.add (.num 1 1) (.mul (.num 2 1) (.var 1)))))) (.mul (.num 9 1) (.sqrt (.div (.mul (.add (.num 1 1) (.var 1)) (.add (.sub (.num 1 1) (.mul (.num 3 1) (.var 1))) (.mul (.num 2 1) (.pow (.var 1) 2)))) (.add (.num 1 1) (.mul (.num 2 1) (.var 1))))))) (.mul (.mul (.num 3 1) (.var 1)) (.sqrt (.add (.sub (.num 1 1) (.mul (.num 5 1) (.pow (.var 1) 2))) (.mul (.num 4 1) (.pow (.var 1) 4)))))) (.mul (.mul (.var 1) (.add (.add (.num 3 1) (.mul (.num 5 1) (.var 1))) (.mul (.num 2 1) (.pow (.var 1) 2)))) (.sqrt (.add (.neg (.num 1 1)) (.mul (.num 4 1) (.pow (.var 1) 2))))),
  .div (.neg (.add (.add (.add (.mul (.num 6 1) (.sqrt (.div (.mul (.mul (.mul (.add (.neg (.num 1 1)) (.var 1)) (.var 1)) (.add (.neg (.num 1 1)) (.mul (.num 2 1) (.var 1)))) (.add (.num 1 1) (.mul (.num 2 1) (.var 1)))) (.add (.add (.num 3 1) (.mul (.num 5 1) (.var 1))) (.mul (.num 2 1) (.pow (.var 1) 2)))))) (.mul (.num 2 1) (.sqrt (.mul (.mul (.mul (.add (.neg (.num 1 1)) (.var 1)) (.var 1)) (.add (.add (.num 3 1) (.mul (.num 5 1) (.var 1))) (.mul (.num 2 1) (.pow (.var 1) 2)))) (.add (.neg (.num 1 1)) (.mul (.num 4 1) (.pow (.var 1) 2))))))) (.mul (.num 6 1) (.sqrt (.div (.mul (.var 1) (.add (.sub (.num 1 1) (.mul (.num 3 1) (.var 1))) (.mul (.num 2 1) (.pow (.var 1) 2)))) (.add (.add (.add (.num 3 1) (.mul (.num 11 1) (.var 1))) (.mul (.num 12 1) (.pow (.var 1) 2))) (.mul (.num 4 1) (.pow (.var 1) 3))))))) (.mul (.num 6 1) (.sqrt (.div (.add (.sub (.var 1) (.mul (.num 5 1) (.pow (.var 1) 3))) (.mul (.num 4 1) (.pow (.var 1) 5))) (.add (.num 3 1) (.mul (.num 2 1) (.var 1)))))))) (.mul (.num 2 1) (.sqrt (.mul (.mul (.var 1) (.add (.neg (.num 1 1)) (.mul (.num 4 1) (.pow (.var 1) 2)))) (.add (.add (.add (.num 6 1) (.mul (.num 13 1) (.var 1))) (.mul (.num 9 1) (.pow (.var 1) 2))) (.mul (.num 2 1) (.pow (.var 1) 3)))))),
  .div (.sqrt (.num 3 1)) (.sqrt (.mul (.var 1) (.add (.neg (.num 1 1)) (.mul (.num 2 1) (.var 1))))),
  .div (.sqrt (.num 3 1)) (.mul (.var 1) (.sqrt (.add (.neg (.num 1 1)) (.mul (.num 4 1) (.pow (.var 1) 2))))),
  .div (.mul (.add (.num 1 1) (.var 1)) (.add (.neg (.num 3 1)) (.mul (.num 2 1) (.var 1)))) (.sqrt (.mul (.var 1) (.add (.sub (.sub (.num 3 1) (.mul (.num 5 1) (.var 1))) (.mul (.num 4 1) (.pow (.var 1) 2))) (.mul (.num 4 1) (.pow (.var 1) 3))))),
  .div (.mul (.sqrt (.num 3 1)) (.sqrt (.div (.add (.neg (.num 1 1)) (.var 1)) (.add (.neg (.num 1 1)) (.mul (.num 2 1) (.var 1)))))) (.var 1),
  .div (.add (.add (.sqrt (.div (.mul (.mul (.add (.neg (.num 1 1)) (.var 1)) (.add (.neg (.num 1 1)) (.mul (.num 2 1) (.var 1)))) (.add (.num 1 1) (.mul (.num 2 1) (.var 1)))) (.add (.num 1 1) (.var 1)))) (.sqrt (.div (.add (.sub (.num 1 1) (.mul (.num 3 1) (.var 1))) (.mul (.num 2 1) (.pow (.var 1) 2))) (.add (.add (.num 1 1) (.mul (.num 3 1) (.var 1))) (.mul (.num 2 1) (.pow (.var 1) 2)))))) (.sqrt (.add (.sub (.num 1 1) (.mul (.num 5 1) (.pow (.var 1) 2))) (.mul (.num 4 1) (.pow (.var 1) 4))))) (.sqrt (.mul (.var 1) (.add (.add (.add (.neg (.num 3 1)) (.var 1)) (.mul (.num 8 1) (.pow (.var 1) 2))) (.mul (.num 4 1) (.pow (.var 1) 3))))),
  .div (.sqrt (.num 6 1)) (.sqrt (.add (.sub (.num 1 1) (.mul (.num 3 1) (.var 1))) (.mul (.num 2 1) (.pow (.var 1) 2)))),
  .div (.mul (.num 3 1) (.sqrt (.num 2 1))) (.mul (.sqrt (.mul (.add (.neg (.num 1 1)) (.var 1)) (.var 1))) (.add (.neg (.num 1 1)) (.mul (.num 2 1) (.var 1)))),
  .div (.mul (.num 3 1) (.sqrt (.num 2 1))) (.sqrt (.mul (.mul (.pow (.var 1) 2) (.add (.sub (.num 1 1) (.mul (.num 3 1) (.var 1))) (.mul (.num 2 1) (.pow (.var 1) 2)))) (.add (.neg (.num 1 1)) (.mul (.num 4 1) (.pow (.var 1) 2))))),
  .div (.add (.sub (.neg (.num 5 1)) (.mul (.num 3 1) (.var 1))) (.mul (.num 2 1) (.pow (.var 1) 2))) (.sqrt (.mul (.add (.sub (.num 5 1) (.mul (.num 7 1) (.var 1))) (.mul (.num 2 1) (.pow (.var 1) 2))) (.add (.add (.neg (.num 1 1)) (.var 1)) (.mul (.num 2 1) (.pow (.var 1) 2))))),
  .div (.mul (.num 3 1) (.add (.sub (.neg (.num 2 1)) (.var 1)) (.pow (.var 1) 2))) (.mul (.var 1) (.sqrt (.add (.sub (.add (.neg (.num 2 1)) (.mul (.num 5 1) (.var 1))) (.mul (.num 5 1) (.pow (.var 1) 3))) (.mul (.num 2 1) (.pow (.var 1) 4))))),
  .div (.mul (.mul (.mul (.num 3 1) (.sqrt (.num 3 1))) (.add (.neg (.num 3 1)) (.mul (.num 2 1) (.var 1)))) (.sqrt (.div (.add (.add (.neg (.num 1 1)) (.var 1)) (.mul (.num 2 1) (.pow (.var 1) 2))) (.add (.sub (.num 3 1) (.mul (.num 5 1) (.var 1))) (.mul (.num 2 1) (.pow (.var 1) 2)))))) (.mul (.var 1) (.add (.neg (.num 1 1)) (.mul (.num 4 1) (.pow (.var 1) 2)))),
  .div (.mul (.num 3 1) (.sqrt (.num 2 1))) (.mul (.sqrt (.add (.add (.neg (.num 1 1)) (.var 1)) (.mul (.num 2 1) (.pow (.var 1) 2)))) (.add (.var 1) (.mul (.num 2 1) (.pow (.var 1) 2)))),
  .neg (.div (.sqrt (.add (.sub (.sub (.add (.num 18 1) (.mul (.num 9 1) (.var 1))) (.mul (.num 17 1) (.pow (.var 1) 2))) (.mul (.num 4 1) (.pow (.var 1) 3))) (.mul (.num 4 1) (.pow (.var 1) 4)))) (.sub (.var 1) (.mul (.num 2 1) (.pow (.var 1) 2)))),
  .sub (.add (.div (.mul (.num 18 1) (.sqrt (.div (.add (.sub (.num 3 1) (.mul (.num 5 1) (.var 1))) (.mul (.num 2 1) (.pow (.var 1) 2))) (.add (.add (.num 3 1) (.mul (.num 8 1) (.var 1))) (.mul (.num 4 1) (.pow (.var 1) 2)))))) (.mul (.var 1) (.add (.add (.neg (.num 1 1)) (.var 1)) (.mul (.num 2 1) (.pow (.var 1) 2))))) (.div (.mul (.mul (.num 6 1) (.add (.num 3 1) (.var 1))) (.sqrt (.div (.add (.neg (.num 1 1)) (.var 1)) (.add (.add (.sub (.neg (.num 9 1)) (.mul (.num 18 1) (.var 1))) (.mul (.num 4 1) (.pow (.var 1) 2))) (.mul (.num 8 1) (.pow (.var 1) 3)))))) (.add (.num 1 1) (.var 1)))) (.div (.mul (.mul (.num 9 1) (.add (.num 3 1) (.var 1))) (.sqrt (.div (.add (.neg (.num 1 1)) (.var 1)) (.add (.add (.sub (.neg (.num 9 1)) (.mul (.num 18 1) (.var 1))) (.mul (.num 4 1) (.pow (.var 1) 2))) (.mul (.num 8 1) (.pow (.var 1) 3)))))) (.mul (.var 1) (.add (.num 1 1) (.var 1)))),
  .div (.mul (.mul (.num 3 1) (.sqrt (.num 2 1))) (.add (.sub (.add (.add (.mul (.mul (.neg (.num 3 1)) (.add (.neg (.num 1 1)) (.mul (.num 2 1) (.var 1)))) (.sqrt (.add (.add (.sub (.neg (.num 3 1)) (.mul (.num 2 1) (.var 1))) (.mul (.num 3 1) (.pow (.var 1) 2))) (.mul (.num 2 1) (.pow (.var 1) 3))))) (.mul (.mul (.mul (.num 6 1) (.var 1)) (.add (.neg (.num 1 1)) (.mul (.num 2 1) (.var 1)))) (.sqrt (.add (.add (.sub (.neg (.num 3 1)) (.mul (.num 2 1) (.var 1))) (.mul (.num 3 1) (.pow (.var 1) 2))) (.mul (.num 2 1) (.pow (.var 1) 3)))))) (.mul (.mul (.num 6 1) (.sqrt (.div (.add (.neg (.num 1 1)) (.var 1)) (.add (.add (.num 3 1) (.mul (.num 5 1) (.var 1))) (.mul (.num 2 1) (.pow (.var 1) 2)))))) (.add (.add (.add (.neg (.num 3 1)) (.var 1)) (.mul (.num 8 1) (.pow (.var 1) 2))) (.mul (.num 4 1) (.pow (.var 1) 3))))) (.mul (.mul (.var 1) (.sqrt (.div (.add (.neg (.num 1 1)) (.var 1)) (.add (.add (.num 3 1) (.mul (.num 5 1) (.var 1))) (.mul (.num 2 1) (.pow (.var 1) 2)))))) (.add (.add (.add (.neg (.num 3 1)) (.var 1)) (.mul (.num 8 1) (.pow (.var 1) 2))) (.mul (.num 4 1) (.pow (.var 1) 3))))) (.mul (.mul (.mul (.num 2 1) (.pow (.var 1) 2)) (.sqrt (.div (.add (.neg (.num 1 1)) (.var 1)) (.add (.add (.num 3 1) (.mul (.num 5 1) (.var 1))) (.mul (.num 2 1) (.pow (.var 1) 2)))))) (.add (.add (.add (.neg (.num 3 1)) (.var 1)) (.mul (.num 8 1) (.pow (.var 1) 2))) (.mul (.num 4 1) (.pow (.var 1) 3)))))) (.mul (.mul (.mul (.var 1) (.pow (.add (.num 1 1) (.var 1)) 2)) (.sqrt (.add (.num 1 1) (.mul (.num 2 1) (.var 1))))) (.hpow (.add (.add (.neg (.num 3 1)) (.mul (.num 4 1) (.var 1))) (.mul (.num 4 1) (.pow (.var 1) 2))) 1)),
  .add (.add (.add (.div (.mul (.num 6 1) (.sqrt (.div (.add (.sub (.num 3 1) (.mul (.num 5 1) (.var 1))) (.mul (.num 2 1) (.pow (.var 1) 2))) (.add (.add (.num 6 1) (.mul (.num 7 1) (.var 1))) (.mul (.num 2 1) (.pow (.var 1) 2)))))) (.add (.add (.var 1) (.mul (.num 3 1) (.pow (.var 1) 2))) (.mul (.num 2 1) (.pow (.var 1) 3)))) (.mul (.add (.neg (.num 3 1)) (.mul (.num 2 1) (.var 1))) (.sqrt (.div (.add (.neg (.num 1 1)) (.var 1)) (.add (.add (.sub (.neg (.num 18 1)) (.mul (.num 9 1) (.var 1))) (.mul (.num 8 1) (.pow (.var 1) 2))) (.mul (.num 4 1) (.pow (.var 1) 3))))))) (.div (.mul (.mul (.num 3 1) (.add (.neg (.num 3 1)) (.mul (.num 2 1) (.var 1)))) (.sqrt (.div (.add (.neg (.num 1 1)) (.var 1)) (.add (.add (.sub (.neg (.num 18 1)) (.mul (.num 9 1) (.var 1))) (.mul (.num 8 1) (.pow (.var 1) 2))) (.mul (.num 4 1) (.pow (.var 1) 3)))))) (.add (.num 1 1) (.var 1)))) (.mul (.mul (.num 9 1) (.add (.neg (.num 3 1)) (.mul (.num 2 1) (.var 1)))) (.sqrt (.div (.add (.neg (.num 1 1)) (.var 1)) (.mul (.pow (.add (.add (.num 1 1) (.mul (.num 3 1) (.var 1))) (.mul (.num 2 1) (.pow (.var 1) 2))) 2) (.add (.add (.sub (.neg (.num 18 1)) (.mul (.num 9 1) (.var 1))) (.mul (.num 8 1) (.pow (.var 1) 2))) (.mul (.num 4 1) (.pow (.var 1) 3))))))),
  .div (.mul (.sqrt (.num 6 1)) (.add (.add (.add (.mul (.num 6 1) (.sqrt (.div (.mul (.var 1) (.add (.sub (.num 3 1) (.mul (.num 7 1) (.var 1))) (.mul (.num 4 1) (.pow (.var 1) 3)))) (.add (.num 1 1) (.mul (.num 2 1) (.var 1)))))) (.mul (.num 9 1) (.sqrt (.div (.mul (.pow (.var 1) 3) (.add (.sub (.num 3 1) (.mul (.num 7 1) (.var 1))) (.mul (.num 4 1) (.pow (.var 1) 3)))) (.add (.num 1 1) (.mul (.num 2 1) (.var 1))))))) (.mul (.num 4 1) (.sqrt (.mul (.pow (.var 1) 3) (.add (.add (.sub (.sub (.num 3 1) (.var 1)) (.mul (.num 14 1) (.pow (.var 1) 2))) (.mul (.num 4 1) (.pow (.var 1) 3))) (.mul (.num 8 1) (.pow (.var 1) 4))))))) (.sqrt (.mul (.pow (.var 1) 5) (.add (.add (.sub (.sub (.num 3 1) (.var 1)) (.mul (.num 14 1) (.pow (.var 1) 2))) (.mul (.num 4 1) (.pow (.var 1) 3))) (.mul (.num 8 1) (.pow (.var 1) 4))))))) (.mul (.mul (.mul (.var 1) (.hpow (.add (.num 1 1) (.var 1)) 1)) (.add (.add (.num 6 1) (.mul (.num 7 1) (.var 1))) (.mul (.num 2 1) (.pow (.var 1) 2)))) (.sqrt (.add (.neg (.num 1 1)) (.mul (.num 4 1) (.pow (.var 1) 2))))),
  .div (.add (.add (.add (.add (.mul (.mul (.num 2 1) (.add (.num 1 1) (.mul (.num 2 1) (.var 1)))) (.sqrt (.div (.mul (.mul (.mul (.add (.neg (.num 1 1)) (.var 1)) (.var 1)) (.add (.neg (.num 1 1)) (.mul (.num 2 1) (.var 1)))) (.add (.add (.num 3 1) (.mul (.num 5 1) (.var 1))) (.mul (.num 2 1) (.pow (.var 1) 2)))) (.add (.num 2 1) (.var 1))))) (.mul (.mul (.num 6 1) (.add (.num 1 1) (.mul (.num 2 1) (.var 1)))) (.sqrt (.div (.mul (.mul (.add (.neg (.num 1 1)) (.var 1)) (.var 1)) (.add (.neg (.num 1 1)) (.mul (.num 2 1) (.var 1)))) (.add (.add (.add (.num 6 1) (.mul (.num 13 1) (.var 1))) (.mul (.num 9 1) (.pow (.var 1) 2))) (.mul (.num 2 1) (.pow (.var 1) 3))))))) (.mul (.num 6 1) (.sqrt (.div (.mul (.var 1) (.add (.sub (.num 1 1) (.mul (.num 3 1) (.var 1))) (.mul (.num 2 1) (.pow (.var 1) 2)))) (.add (.add (.add (.num 6 1) (.mul (.num 13 1) (.var 1))) (.mul (.num 9 1) (.pow (.var 1) 2))) (.mul (.num 2 1) (.pow (.var 1) 3))))))) (.mul (.add (.num 1 1) (.mul (.num 2 1) (.var 1))) (.sqrt (.mul (.mul (.mul (.add (.neg (.num 1 1)) (.var 1)) (.var 1)) (.add (.neg (.num 1 1)) (.mul (.num 2 1) (.var 1)))) (.add (.add (.add (.num 6 1) (.mul (.num 13 1) (.var 1))) (.mul (.num 9 1) (.pow (.var 1) 2))) (.mul (.num 2 1) (.pow (.var 1) 3))))))) (.mul (.num 6 1) (.sqrt (.div (.mul (.mul (.var 1) (.add (.num 1 1) (.mul (.num 2 1) (.var 1)))) (.add (.sub (.num 1 1) (.mul (.num 5 1) (.pow (.var 1) 2))) (.mul (.num 4 1) (.pow (.var 1) 4)))) (.add (.add (.num 6 1) (.mul (.num 7 1) (.var 1))) (.mul (.num 2 1) (.pow (.var 1) 2))))))) (.mul (.add (.num 1 1) (.var 1)) (.sqrt (.mul (.var 1) (.add (.add (.add (.add (.sub (.neg (.num 30 1)) (.mul (.num 47 1) (.var 1))) (.mul (.num 96 1) (.pow (.var 1) 2))) (.mul (.num 184 1) (.pow (.var 1) 3))) (.mul (.num 96 1) (.pow (.var 1) 4))) (.mul (.num 16 1) (.pow (.var 1) 5)))))),
  .neg (.div (.sqrt (.num 15 1)) (.sqrt (.add (.sub (.num 3 1) (.mul (.num 8 1) (.var 1))) (.mul (.num 4 1) (.pow (.var 1) 2))))),
  .neg (.div (.sqrt (.num 30 1)) (.sqrt (.mul (.mul (.var 1) (.add (.neg (.num 1 1)) (.mul (.num 2 1) (.var 1)))) (.add (.sub (.num 3 1) (.mul (.num 5 1) (.var 1))) (.mul (.num 2 1) (.pow (.var 1) 2)))))),
  .div (.mul (.neg (.num 3 1)) (.sqrt (.num 10 1))) (.mul (.add (.neg (.num 1 1)) (.mul (.num 2 1) (.var 1))) (.sqrt (.mul (.var 1) (.add (.sub (.add (.num 3 1) (.var 1)) (.mul (.num 8 1) (.pow (.var 1) 2))) (.mul (.num 4 1) (.pow (.var 1) 3)))))),
  .div (.mul (.neg (.num 2 1)) (.add (.sub (.neg (.num 3 1)) (.mul (.num 2 1) (.var 1))) (.pow (.var 1) 2))) (.sqrt (.mul (.add (.sub (.num 9 1) (.mul (.num 9 1) (.var 1))) (.mul (.num 2 1) (.pow (.var 1) 2))) (.add (.add (.neg (.num 1 1)) (.var 1)) (.mul (.num 2 1) (.pow (.var 1) 2))))),
  .div (.mul (.mul (.num 2 1) (.sqrt (.num 6 1))) (.sub (.add (.mul (.num 5 1) (.sqrt (.mul (.var 1) (.add (.num 1 1) (.var 1))))) (.mul (.mul (.num 3 1) (.var 1)) (.sqrt (.mul (.var 1) (.add (.num 1 1) (.var 1)))))) (.mul (.num 2 1) (.sqrt (.mul (.pow (.var 1) 5) (.add (.num 1 1) (.var 1))))))) (.mul (.mul (.var 1) (.add (.add (.neg (.num 1 1)) (.var 1)) (.mul (.num 2 1) (.pow (.var 1) 2)))) (.sqrt (.add (.sub (.num 15 1) (.mul (.num 16 1) (.var 1))) (.mul (.num 4 1) (.pow (.var 1) 2))))),
  .div (.mul (.mul (.mul (.neg (.num 6 1)) (.sqrt (.num 6 1))) (.add (.neg (.num 2 1)) (.var 1))) (.sqrt (.div (.add (.add (.num 1 1) (.mul (.num 3 1) (.var 1))) (.mul (.num 2 1) (.pow (.var 1) 2))) (.add (.sub (.num 6 1) (.mul (.num 7 1) (.var 1))) (.mul (.num 2 1) (.pow (.var 1) 2)))))) (.mul (.var 1) (.add (.neg (.num 1 1)) (.mul (.num 4 1) (.pow (.var 1) 2)))),
  .div (.num 12 1) (.sub (.var 1) (.mul (.num 4 1) (.pow (.var 1) 3))),
  .sub (.sub (.div (.mul (.num 10 1) (.sqrt (.div (.add (.sub (.num 10 1) (.mul (.num 9 1) (.var 1))) (.mul (.num 2 1) (.pow (.var 1) 2))) (.mul (.var 1) (.add (.add (.sub (.neg (.num 3 1)) (.mul (.num 2 1) (.var 1))) (.mul (.num 3 1) (.pow (.var 1) 2))) (.mul (.num 2 1) (.pow (.var 1) 3))))))) (.sub (.num 1 1) (.mul (.num 2 1) (.var 1)))) (.mul (.mul (.mul (.num 8 1) (.add (.neg (.num 1 1)) (.var 1))) (.add (.neg (.num 5 1)) (.mul (.num 2 1) (.var 1)))) (.sqrt (.div (.add (.neg (.num 2 1)) (.var 1)) (.mul (.mul (.pow (.sub (.num 1 1) (.mul (.num 2 1) (.var 1))) 2) (.var 1)) (.add (.sub (.sub (.add (.num 15 1) (.mul (.num 4 1) (.var 1))) (.mul (.num 19 1) (.pow (.var 1) 2))) (.mul (.num 4 1) (.pow (.var 1) 3))) (.mul (.num 4 1) (.pow (.var 1) 4)))))))) (.div (.mul (.add (.neg (.num 1 1)) (.var 1)) (.add (.sub (.num 10 1) (.mul (.num 9 1) (.var 1))) (.mul (.num 2 1) (.pow (.var 1) 2)))) (.sqrt (.mul (.var 1) (.add (.sub (.sub (.add (.add (.neg (.num 30 1)) (.mul (.num 7 1) (.var 1))) (.mul (.num 42 1) (.pow (.var 1) 2))) (.mul (.num 11 1) (.pow (.var 1) 3))) (.mul (.num 12 1) (.pow (.var 1) 4))) (.mul (.num 4 1) (.pow (.var 1) 5)))))),
  .mul (.mul (.num 3 1) (.sqrt (.num 3 1))) (.sub (.sub (.div (.mul (.num 10 1) (.sqrt (.div (.add (.sub (.num 6 1) (.mul (.num 7 1) (.var 1))) (.mul (.num 2 1) (.pow (.var 1) 2))) (.mul (.var 1) (.add (.add (.sub (.neg (.num 3 1)) (.mul (.num 2 1) (.var 1))) (.mul (.num 3 1) (.pow (.var 1) 2))) (.mul (.num 2 1) (.pow (.var 1) 3))))))) (.sub (.num 1 1) (.mul (.num 4 1) (.pow (.var 1) 2)))) (.mul (.mul (.mul (.num 8 1) (.add (.neg (.num 2 1)) (.var 1))) (.add (.neg (.num 1 1)) (.var 1))) (.sqrt (.div (.add (.neg (.num 3 1)) (.mul (.num 2 1) (.var 1))) (.mul (.mul (.var 1) (.pow (.sub (.num 1 1) (.mul (.num 4 1) (.pow (.var 1) 2))) 2)) (.add (.sub (.sub (.add (.num 6 1) (.var 1)) (.mul (.num 8 1) (.pow (.var 1) 2))) (.pow (.var 1) 3)) (.mul (.num 2 1) (.pow (.var 1) 4)))))))) (.div (.mul (.add (.neg (.num 1 1)) (.var 1)) (.add (.sub (.num 6 1) (.mul (.num 7 1) (.var 1))) (.mul (.num 2 1) (.pow (.var 1) 2)))) (.mul (.add (.num 1 1) (.mul (.num 2 1) (.var 1))) (.sqrt (.mul (.var 1) (.add (.sub (.sub (.add (.add (.neg (.num 18 1)) (.mul (.num 9 1) (.var 1))) (.mul (.num 26 1) (.pow (.var 1) 2))) (.mul (.num 13 1) (.pow (.var 1) 3))) (.mul (.num 8 1) (.pow (.var 1) 4))) (.mul (.num 4 1) (.pow (.var 1) 5)))))))),
  .mul (.mul (.num 3 1) (.sqrt (.num 6 1))) (.sub (.sub (.div (.mul (.num 10 1) (.sqrt (.div (.add (.neg (.num 3 1)) (.mul (.num 2 1) (.var 1))) (.mul (.var 1) (.add (.add (.num 3 1) (.mul (.num 5 1) (.var 1))) (.mul (.num 2 1) (.pow (.var 1) 2))))))) (.mul (.add (.num 1 1) (.var 1)) (.sub (.num 1 1) (.mul (.num 4 1) (.pow (.var 1) 2))))) (.div (.mul (.add (.neg (.num 1 1)) (.var 1)) (.add (.neg (.num 3 1)) (.mul (.num 2 1) (.var 1)))) (.mul (.mul (.hpow (.add (.num 1 1) (.var 1)) 1) (.add (.num 1 1) (.mul (.num 2 1) (.var 1)))) (.sqrt (.mul (.var 1) (.add (.neg (.num 9 1)) (.mul (.num 4 1) (.pow (.var 1) 2)))))))) (.div (.mul (.mul (.num 8 1) (.add (.neg (.num 1 1)) (.var 1))) (.add (.neg (.num 3 1)) (.mul (.num 2 1) (.var 1)))) (.mul (.mul (.add (.num 1 1) (.var 1)) (.add (.neg (.num 1 1)) (.mul (.num 4 1) (.pow (.var 1) 2)))) (.sqrt (.mul (.var 1) (.add (.add (.sub (.neg (.num 9 1)) (.mul (.num 9 1) (.var 1))) (.mul (.num 4 1) (.pow (.var 1) 2))) (.mul (.num 4 1) (.pow (.var 1) 3)))))))),
  .mul (.mul (.num 3 1) (.sqrt (.num 10 1))) (.sub (.sub (.mul (.sub (.add (.neg (.num 1 1)) (.mul (.num 3 1) (.var 1))) (.mul (.num 2 1) (.pow (.var 1) 2))) (.sqrt (.div (.num 1 1) (.mul (.mul (.mul (.var 1) (.add (.neg (.num 1 1)) (.mul (.num 2 1) (.var 1)))) (.pow (.add (.num 1 1) (.mul (.num 2 1) (.var 1))) 2)) (.pow (.add (.add (.num 3 1) (.mul (.num 5 1) (.var 1))) (.mul (.num 2 1) (.pow (.var 1) 2))) 3))))) (.div (.num 10 1) (.mul (.mul (.add (.num 1 1) (.mul (.num 2 1) (.var 1))) (.add (.add (.num 3 1) (.mul (.num 5 1) (.var 1))) (.mul (.num 2 1) (.pow (.var 1) 2)))) (.sqrt (.mul (.var 1) (.add (.add (.add (.neg (.num 3 1)) (.var 1)) (.mul (.num 8 1) (.pow (.var 1) 2))) (.mul (.num 4 1) (.pow (.var 1) 3)))))))) (.div (.mul (.num 8 1) (.hpow (.add (.neg (.num 1 1)) (.var 1)) 1)) (.mul (.add (.add (.add (.num 3 1) (.mul (.num 11 1) (.var 1))) (.mul (.num 12 1) (.pow (.var 1) 2))) (.mul (.num 4 1) (.pow (.var 1) 3))) (.sqrt (.mul (.var 1) (.add (.add (.sub (.sub (.num 3 1) (.mul (.num 4 1) (.var 1))) (.mul (.num 7 1) (.pow (.var 1) 2))) (.mul (.num 4 1) (.pow (.var 1) 3))) (.mul (.num 4 1) (.pow (.var 1) 4)))))))),
  .div (.sub (.sub (.sub (.div (.mul (.num 60 1) (.sqrt (.div (.add (.sub (.add (.neg (.num 6 1)) (.mul (.num 13 1) (.var 1))) (.mul (.num 9 1) (.pow (.var 1) 2))) (.mul (.num 2 1) (.pow (.var 1) 3))) (.add (.add (.add (.num 6 1) (.mul (.num 13 1) (.var 1))) (.mul (.num 9 1) (.pow (.var 1) 2))) (.mul (.num 2 1) (.pow (.var 1) 3)))))) (.sub (.var 1) (.mul (.num 4 1) (.pow (.var 1) 3)))) (.mul (.mul (.num 36 1) (.add (.neg (.num 2 1)) (.var 1))) (.sqrt (.div (.add (.sub (.num 3 1) (.mul (.num 5 1) (.var 1))) (.mul (.num 2 1) (.pow (.var 1) 2))) (.mul (.mul (.pow (.var 1) 2) (.pow (.add (.num 1 1) (.mul (.num 2 1) (.var 1))) 2)) (.add (.add (.sub (.sub (.neg (.num 12 1)) (.mul (.num 20 1) (.var 1))) (.mul (.num 5 1) (.pow (.var 1) 2))) (.mul (.num 5 1) (.pow (.var 1) 3))) (.mul (.num 2 1) (.pow (.var 1) 4)))))))) (.mul (.mul (.num 2 1) (.add (.sub (.num 6 1) (.mul (.num 7 1) (.var 1))) (.mul (.num 2 1) (.pow (.var 1) 2)))) (.sqrt (.div (.add (.neg (.num 1 1)) (.var 1)) (.add (.add (.sub (.sub (.add (.num 36 1) (.mul (.num 36 1) (.var 1))) (.mul (.num 25 1) (.pow (.var 1) 2))) (.mul (.num 25 1) (.pow (.var 1) 3))) (.mul (.num 4 1) (.pow (.var 1) 4))) (.mul (.num 4 1) (.pow (.var 1) 5))))))) (.mul (.mul (.num 18 1) (.add (.sub (.num 6 1) (.mul (.num 7 1) (.var 1))) (.mul (.num 2 1) (.pow (.var 1) 2)))) (.sqrt (.div (.add (.neg (.num 1 1)) (.var 1)) (.mul (.pow (.add (.num 1 1) (.mul (.num 2 1) (.var 1))) 2) (.add (.add (.sub (.sub (.add (.num 36 1) (.mul (.num 36 1) (.var 1))) (.mul (.num 25 1) (.pow (.var 1) 2))) (.mul (.num 25 1) (.pow (.var 1) 3))) (.mul (.num 4 1) (.pow (.var 1) 4))) (.mul (.num 4 1) (.pow (.var 1) 5)))))))) (.num 2 1),
  .mul (.sqrt (.num 6 1)) (.sub (.sub (.sub (.div (.mul (.mul (.neg (.num 18 1)) (.add (.neg (.num 3 1)) (.mul (.num 2 1) (.var 1)))) (.sqrt (.div (.add (.sub (.num 1 1) (.mul (.num 3 1) (.var 1))) (.mul (.num 2 1) (.pow (.var 1) 2))) (.mul (.mul (.pow (.var 1) 2) (.add (.add (.neg (.num 6 1)) (.var 1)) (.mul (.num 2 1) (.pow (.var 1) 2)))) (.pow (.add (.add (.num 3 1) (.mul (.num 8 1) (.var 1))) (.mul (.num 4 1) (.pow (.var 1) 2))) 2))))) (.add (.num 1 1) (.var 1))) (.div (.mul (.num 30 1) (.sqrt (.div (.add (.sub (.num 3 1) (.mul (.num 5 1) (.var 1))) (.mul (.num 2 1) (.pow (.var 1) 2))) (.mul (.mul (.pow (.var 1) 2) (.add (.add (.neg (.num 2 1)) (.mul (.num 3 1) (.var 1))) (.mul (.num 2 1) (.pow (.var 1) 2)))) (.pow (.add (.add (.num 3 1) (.mul (.num 8 1) (.var 1))) (.mul (.num 4 1) (.pow (.var 1) 2))) 2))))) (.add (.num 1 1) (.var 1)))) (.div (.mul (.mul (.add (.neg (.num 3 1)) (.mul (.num 2 1) (.var 1))) (.add (.neg (.num 1 1)) (.mul (.num 2 1) (.var 1)))) (.sqrt (.div (.add (.neg (.num 1 1)) (.var 1)) (.add (.sub (.num 6 1) (.mul (.num 13 1) (.var 1))) (.mul (.num 4 1) (.pow (.var 1) 3)))))) (.add (.add (.num 3 1) (.mul (.num 5 1) (.var 1))) (.mul (.num 2 1) (.pow (.var 1) 2))))) (.div (.mul (.mul (.mul (.num 9 1) (.add (.neg (.num 3 1)) (.mul (.num 2 1) (.var 1)))) (.add (.neg (.num 1 1)) (.mul (.num 2 1) (.var 1)))) (.sqrt (.div (.add (.neg (.num 1 1)) (.var 1)) (.add (.sub (.num 6 1) (.mul (.num 13 1) (.var 1))) (.mul (.num 4 1) (.pow (.var 1) 3)))))) (.add (.add (.add (.num 3 1) (.mul (.num 11 1) (.var 1))) (.mul (.num 12 1) (.pow (.var 1) 2))) (.mul (.num 4 1) (.pow (.var 1) 3))))),
  .div (.mul (.mul (.neg (.num 2 1)) (.sqrt (.num 30 1))) (.add (.add (.add (.add (.mul (.num 9 1) (.sqrt (.add (.add (.neg (.num 3 1)) (.div (.num 1 1) (.var 1))) (.mul (.num 2 1) (.var 1))))) (.mul (.num 15 1) (.sqrt (.div (.sub (.num 1 1) (.var 1)) (.sub (.var 1) (.mul (.num 2 1) (.pow (.var 1) 2))))))) (.div (.mul (.num 15 1) (.sqrt (.mul (.var 1) (.add (.sub (.num 1 1) (.mul (.num 3 1) (.var 1))) (.mul (.num 2 1) (.pow (.var 1) 2)))))) (.add (.num 3 1) (.mul (.num 2 1) (.var 1))))) (.div (.mul (.num 2 1) (.sqrt (.mul (.pow (.var 1) 5) (.add (.sub (.num 1 1) (.mul (.num 3 1) (.var 1))) (.mul (.num 2 1) (.pow (.var 1) 2)))))) (.add (.num 3 1) (.mul (.num 2 1) (.var 1))))) (.mul (.mul (.num 13 1) (.var 1)) (.sqrt (.div (.mul (.var 1) (.add (.sub (.num 1 1) (.mul (.num 3 1) (.var 1))) (.mul (.num 2 1) (.pow (.var 1) 2)))) (.pow (.add (.num 3 1) (.mul (.num 2 1) (.var 1))) 2)))))) (.mul (.mul (.add (.num 1 1) (.mul (.num 2 1) (.var 1))) (.hpow (.add (.num 3 1) (.mul (.num 2 1) (.var 1))) 1)) (.add (.add (.num 2 1) (.mul (.num 3 1) (.var 1))) (.pow (.var 1) 2))),
  .sub (.sub (.add (.sub (.div (.mul (.neg (.num 30 1)) (.sqrt (.div (.add (.sub (.num 3 1) (.mul (.num 5 1) (.var 1))) (.mul (.num 2 1) (.pow (.var 1) 2))) (.mul (.mul (.var 1) (.pow (.add (.num 1 1) (.var 1)) 3)) (.add (.add (.num 10 1) (.mul (.num 9 1) (.var 1))) (.mul (.num 2 1) (.pow (.var 1) 2))))))) (.add (.add (.num 3 1) (.mul (.num 8 1) (.var 1))) (.mul (.num 4 1) (.pow (.var 1) 2)))) (.mul (.mul (.mul (.num 18 1) (.var 1)) (.add (.neg (.num 3 1)) (.mul (.num 2 1) (.var 1)))) (.sqrt (.div (.add (.neg (.num 1 1)) (.var 1)) (.mul (.mul (.mul (.var 1) (.pow (.add (.num 1 1) (.var 1)) 3)) (.pow (.add (.num 3 1) (.mul (.num 2 1) (.var 1))) 2)) (.add (.add (.sub (.neg (.num 30 1)) (.mul (.num 7 1) (.var 1))) (.mul (.num 12 1) (.pow (.var 1) 2))) (.mul (.num 4 1) (.pow (.var 1) 3)))))))) (.mul (.sub (.num 3 1) (.mul (.num 2 1) (.var 1))) (.sqrt (.div (.mul (.add (.neg (.num 1 1)) (.var 1)) (.var 1)) (.add (.add (.add (.sub (.neg (.num 30 1)) (.mul (.num 37 1) (.var 1))) (.mul (.num 5 1) (.pow (.var 1) 2))) (.mul (.num 16 1) (.pow (.var 1) 3))) (.mul (.num 4 1) (.pow (.var 1) 4))))))) (.mul (.mul (.mul (.num 8 1) (.var 1)) (.add (.neg (.num 3 1)) (.mul (.num 2 1) (.var 1)))) (.sqrt (.div (.add (.neg (.num 1 1)) (.var 1)) (.mul (.mul (.var 1) (.pow (.add (.num 3 1) (.mul (.num 2 1) (.var 1))) 2)) (.add (.add (.add (.sub (.neg (.num 30 1)) (.mul (.num 37 1) (.var 1))) (.mul (.num 5 1) (.pow (.var 1) 2))) (.mul (.num 16 1) (.pow (.var 1) 3))) (.mul (.num 4 1) (.pow (.var 1) 4)))))))) (.div (.mul (.mul (.num 48 1) (.add (.neg (.num 3 1)) (.mul (.num 2 1) (.var 1)))) (.sqrt (.div (.mul (.add (.neg (.num 1 1)) (.var 1)) (.var 1)) (.mul (.pow (.add (.add (.num 3 1) (.mul (.num 8 1) (.var 1))) (.mul (.num 4 1) (.pow (.var 1) 2))) 2) (.add (.add (.add (.sub (.neg (.num 30 1)) (.mul (.num 37 1) (.var 1))) (.mul (.num 5 1) (.pow (.var 1) 2))) (.mul (.num 16 1) (.pow (.var 1) 3))) (.mul (.num 4 1) (.pow (.var 1) 4))))))) (.add (.num 1 1) (.var 1))),
  .neg (.div (.mul (.sqrt (.num 15 1)) (.add (.add (.mul (.num 10 1) (.sqrt (.mul (.var 1) (.add (.add (.sub (.num 2 1) (.mul (.num 5 1) (.var 1))) (.pow (.var 1) 2)) (.mul (.num 2 1) (.pow (.var 1) 3)))))) (.mul (.num 9 1) (.sqrt (.mul (.pow (.var 1) 3) (.add (.add (.sub (.num 2 1) (.mul (.num 5 1) (.var 1))) (.pow (.var 1) 2)) (.mul (.num 2 1) (.pow (.var 1) 3))))))) (.mul (.num 2 1) (.sqrt (.mul (.pow (.var 1) 5) (.add (.add (.sub (.num 2 1) (.mul (.num 5 1) (.var 1))) (.pow (.var 1) 2)) (.mul (.num 2 1) (.pow (.var 1) 3)))))))) (.mul (.mul (.var 1) (.add (.add (.num 10 1) (.mul (.num 9 1) (.var 1))) (.mul (.num 2 1) (.pow (.var 1) 2)))) (.sqrt (.add (.add (.add (.sub (.neg (.num 3 1)) (.mul (.num 5 1) (.var 1))) (.mul (.num 10 1) (.pow (.var 1) 2))) (.mul (.num 20 1) (.pow (.var 1) 3))) (.mul (.num 8 1) (.pow (.var 1) 4)))))),
  .div (.neg (.add (.add (.add (.add (.add (.mul (.mul (.mul (.num 10 1) (.add (.num 1 1) (.var 1))) (.add (.num 1 1) (.mul (.num 2 1) (.var 1)))) (.sqrt (.div (.mul (.mul (.mul (.add (.neg (.num 1 1)) (.var 1)) (.var 1)) (.add (.neg (.num 1 1)) (.mul (.num 2 1) (.var 1)))) (.add (.add (.num 6 1) (.mul (.num 7 1) (.var 1))) (.mul (.num 2 1) (.pow (.var 1) 2)))) (.add (.num 5 1) (.mul (.num 2 1) (.var 1)))))) (.mul (.mul (.num 20 1) (.add (.add (.num 1 1) (.mul (.num 3 1) (.var 1))) (.mul (.num 2 1) (.pow (.var 1) 2)))) (.sqrt (.div (.mul (.var 1) (.add (.sub (.num 3 1) (.mul (.num 7 1) (.var 1))) (.mul (.num 4 1) (.pow (.var 1) 3)))) (.add (.add (.num 10 1) (.mul (.num 9 1) (.var 1))) (.mul (.num 2 1) (.pow (.var 1) 2))))))) (.mul (.mul (.num 60 1) (.add (.num 1 1) (.mul (.num 2 1) (.var 1)))) (.sqrt (.div (.mul (.mul (.add (.neg (.num 1 1)) (.var 1)) (.var 1)) (.add (.neg (.num 1 1)) (.mul (.num 2 1) (.var 1)))) (.add (.add (.add (.num 30 1) (.mul (.num 47 1) (.var 1))) (.mul (.num 24 1) (.pow (.var 1) 2))) (.mul (.num 4 1) (.pow (.var 1) 3))))))) (.mul (.num 60 1) (.sqrt (.div (.mul (.var 1) (.add (.sub (.num 1 1) (.mul (.num 3 1) (.var 1))) (.mul (.num 2 1) (.pow (.var 1) 2)))) (.add (.add (.add (.num 30 1) (.mul (.num 47 1) (.var 1))) (.mul (.num 24 1) (.pow (.var 1) 2))) (.mul (.num 4 1) (.pow (.var 1) 3))))))) (.mul (.mul (.num 60 1) (.add (.add (.num 1 1) (.mul (.num 3 1) (.var 1))) (.mul (.num 2 1) (.pow (.var 1) 2)))) (.sqrt (.div (.mul (.var 1) (.add (.sub (.num 1 1) (.mul (.num 3 1) (.var 1))) (.mul (.num 2 1) (.pow (.var 1) 2)))) (.add (.add (.add (.num 30 1) (.mul (.num 47 1) (.var 1))) (.mul (.num 24 1) (.pow (.var 1) 2))) (.mul (.num 4 1) (.pow (.var 1) 3))))))) (.mul (.mul (.mul (.num 2 1) (.add (.num 1 1) (.var 1))) (.add (.num 1 1) (.mul (.num 2 1) (.var 1)))) (.sqrt (.mul (.mul (.mul (.add (.neg (.num 1 1)) (.var 1)) (.var 1)) (.add (.neg (.num 1 1)) (.mul (.num 2 1) (.var 1)))) (.add (.add (.add (.num 30 1) (.mul (.num 47 1) (.var 1))) (.mul (.num 24 1) (.pow (.var 1) 2))) (.mul (.num 4 1) (.pow (.var 1) 3)))))))) (.mul (.mul (.num 2 1) (.add (.add (.num 3 1) (.mul (.num 5 1) (.var 1))) (.mul (.num 2 1) (.pow (.var 1) 2)))) (.sqrt (.mul (.var 1) (.add (.add (.add (.add (.sub (.neg (.num 30 1)) (.mul (.num 37 1) (.var 1))) (.mul (.num 105 1) (.pow (.var 1) 2))) (.mul (.num 146 1) (.pow (.var 1) 3))) (.mul (.num 60 1) (.pow (.var 1) 4))) (.mul (.num 8 1) (.pow (.var 1) 5)))))),
  .div (.sqrt (.add (.add (.sub (.sub (.num 18 1) (.mul (.num 9 1) (.var 1))) (.mul (.num 17 1) (.pow (.var 1) 2))) (.mul (.num 4 1) (.pow (.var 1) 3))) (.mul (.num 4 1) (.pow (.var 1) 4)))) (.add (.var 1) (.mul (.num 2 1) (.pow (.var 1) 2)))]

end Verif.Coef
